import Verif.Model.InterfaceSerialize
import Verif.Lemmas.Serialize

/-!
# Round trips of the parts of an interface
-/

namespace DRAMPower

open Ser

theorem putRaw_rt {k n : Nat} (h : n < 256 ^ k) : RoundTrip (putRaw k n) (getRaw k) n := by
  intro out
  refine ⟨le k n, rfl, fun rest => ?_⟩
  rw [getRaw, getBytes_append (le_length k n), Option.map_some]
  simp only [fromLe_le]
  rw [Nat.mod_eq_of_lt h]

theorem putEach_rt {α : Type} {f : α → Bytes → Bytes} {g : Bytes → Option (α × Bytes)} :
    ∀ {l : List α}, (∀ x ∈ l, RoundTrip (f x) g x) → RoundTrip (putEach f l) (getMany g l.length) l
  | [], _ => fun out => ⟨[], by simp [putEach], fun rest => rfl⟩
  | x :: l, h => fun out => by
    obtain ⟨w1, e1, g1⟩ := h x (by simp) out
    obtain ⟨w2, e2, g2⟩ := putEach_rt (l := l) (fun y hy => h y (by simp [hy])) (out ++ w1)
    refine ⟨w1 ++ w2, ?_, fun rest => ?_⟩
    · simp only [putEach, List.foldl_cons] at e2 ⊢
      rw [e1, e2, List.append_assoc]
    · simp [getMany, g1, g2]

theorem putEach_into {α : Type} {f : α → Bytes → Bytes} {g : α → Bytes → Option (α × Bytes)} :
    ∀ {l l0 : List α}, l0.length = l.length → (∀ x ∈ l, ∀ y ∈ l0, RoundTrip (f x) (g y) x) → RoundTrip (putEach f l) (getEach g l0) l
  | [], [], _, _ => fun out => ⟨[], by simp [putEach], fun rest => rfl⟩
  | [], _ :: _, h, _ => by simp at h
  | _ :: _, [], h, _ => by simp at h
  | x :: l, y :: l0, hl, h => fun out => by
    obtain ⟨w1, e1, g1⟩ := h x (by simp) y (by simp) out
    obtain ⟨w2, e2, g2⟩ := putEach_into (l := l) (l0 := l0) (by simpa using hl) (fun a ha b hb => h a (by simp [ha]) b (by simp [hb])) (out ++ w1)
    refine ⟨w1 ++ w2, ?_, fun rest => ?_⟩
    · simp only [putEach, List.foldl_cons] at e2 ⊢
      rw [e1, e2, List.append_assoc]
    · simp [getEach, g1, g2]

theorem word_lt {N k : Nat} (w : BitVec N) (h : N ≤ 8 * k) : w.toNat < 256 ^ k := by
  refine Nat.lt_of_lt_of_le w.isLt ?_
  rw [show (256 : Nat) = 2 ^ 8 from rfl, ← Nat.pow_mul]
  exact Nat.pow_le_pow_right (by decide) h

theorem putWord_rt {N : Nat} (w : BitVec N) : RoundTrip (putWord w) (getWord N) w := by
  intro out
  obtain ⟨x, e, g⟩ := putRaw_rt (word_lt (k := wordBytes N) w (by unfold wordBytes; omega)) out
  refine ⟨x, e, fun rest => ?_⟩
  simp [getWord, g]

theorem putBitset_rt {N : Nat} (w : BitVec N) : RoundTrip (putBitset w) (getBitset N) w := by
  intro out
  obtain ⟨x, e, g⟩ := putRaw_rt (word_lt (k := 8 * ((N + 63) / 64)) w (by omega)) out
  refine ⟨x, e, fun rest => ?_⟩
  simp [getBitset, g]

/-- Fits in 64 bits. -/
def BusStats.Fits (x : BusStats) : Prop :=
  x.ones < 2 ^ 64 ∧ x.zeroes < 2 ^ 64 ∧ x.bitChanges < 2 ^ 64 ∧ x.onesToZeroes < 2 ^ 64 ∧ x.zeroesToOnes < 2 ^ 64

instance (x : BusStats) : Decidable x.Fits := by unfold BusStats.Fits; infer_instance

theorem BusStats.rt {x : BusStats} (h : x.Fits) : RoundTrip x.serialize BusStats.deserialize x := by
  intro out
  obtain ⟨h1, h2, h3, h4, h5⟩ := h
  obtain ⟨w1, e1, g1⟩ := put64_rt h1 out
  obtain ⟨w2, e2, g2⟩ := put64_rt h2 (out ++ w1)
  obtain ⟨w3, e3, g3⟩ := put64_rt h3 (out ++ w1 ++ w2)
  obtain ⟨w4, e4, g4⟩ := put64_rt h4 (out ++ w1 ++ w2 ++ w3)
  obtain ⟨w5, e5, g5⟩ := put64_rt h5 (out ++ w1 ++ w2 ++ w3 ++ w4)
  refine ⟨w1 ++ (w2 ++ (w3 ++ (w4 ++ w5))), ?_, fun rest => ?_⟩
  · simp only [BusStats.serialize, e1, e2, e3, e4, e5]
    simp only [List.append_assoc]
  · simp [BusStats.deserialize, g1, g2, g3, g4, g5]

theorem Pending.rt {α : Type} {p : Pending α} {f : α → Bytes → Bytes} {g : Bytes → Option (α × Bytes)} (ht : p.timestamp < 2 ^ 64)
    (hs : RoundTrip (f p.stats) g p.stats) : RoundTrip (p.serialize f) (Pending.deserialize g) p := by
  intro out
  obtain ⟨w1, e1, g1⟩ := put64_rt ht out
  obtain ⟨w2, e2, g2⟩ := hs (out ++ w1)
  obtain ⟨w3, e3, g3⟩ := putBool_rt p.pending (out ++ w1 ++ w2)
  refine ⟨w1 ++ (w2 ++ w3), ?_, fun rest => ?_⟩
  · simp only [Pending.serialize, e1, e2, e3]
    simp only [List.append_assoc]
  · simp [Pending.deserialize, g1, g2, g3]

def BusContainer.Fits {N : Nat} (d : BusContainer N) : Prop := d.count < 2 ^ 64 ∧ d.loadTime < 2 ^ 64 ∧ d.bursts.length < 2 ^ 64

instance {N : Nat} (d : BusContainer N) : Decidable d.Fits := by unfold BusContainer.Fits; infer_instance

theorem BusContainer.rt {N : Nat} {d : BusContainer N} (h : d.Fits) : RoundTrip d.serialize (BusContainer.deserialize N) d := by
  intro out
  obtain ⟨w1, e1, g1⟩ := put64_rt h.1 out
  obtain ⟨w2, e2, g2⟩ := put64_rt h.2.1 (out ++ w1)
  obtain ⟨w3, e3, g3⟩ := put64_rt h.2.2 (out ++ w1 ++ w2)
  obtain ⟨w4, e4, g4⟩ := putEach_rt (f := putWord) (l := d.bursts) (fun x _ => putWord_rt x) (out ++ w1 ++ w2 ++ w3)
  refine ⟨w1 ++ (w2 ++ (w3 ++ w4)), ?_, fun rest => ?_⟩
  · simp only [BusContainer.serialize, e1, e2, e3, e4]
    simp only [List.append_assoc]
  · simp [BusContainer.deserialize, g1, g2, g3, g4]

def Bus.Fits {N : Nat} (b : Bus N) : Prop :=
  b.stats.Fits ∧ b.storage.Fits ∧ b.lastLoad < 2 ^ 64 ∧ b.disableTime < 2 ^ 64 ∧ b.pending.timestamp < 2 ^ 64 ∧ b.pending.stats.Fits

instance {N : Nat} (b : Bus N) : Decidable b.Fits := by unfold Bus.Fits; infer_instance

/-- The members that are not written agree. -/
def Bus.Same {N : Nat} (b b0 : Bus N) : Prop :=
  b.width = b0.width ∧ b.datarate = b0.datarate ∧ b.idleStats = b0.idleStats ∧ b.idleWord = b0.idleWord

theorem Bus.rt {N : Nat} {b b0 : Bus N} (h : b.Fits) (hs : b.Same b0) : RoundTrip b.serialize b0.deserialize b := by
  intro out
  obtain ⟨w1, e1, g1⟩ := BusStats.rt h.1 out
  obtain ⟨w2, e2, g2⟩ := BusContainer.rt h.2.1 (out ++ w1)
  obtain ⟨w3, e3, g3⟩ := put64_rt h.2.2.1 (out ++ w1 ++ w2)
  obtain ⟨w4, e4, g4⟩ := putBool_rt b.enabled (out ++ w1 ++ w2 ++ w3)
  obtain ⟨w5, e5, g5⟩ := put64_rt h.2.2.2.1 (out ++ w1 ++ w2 ++ w3 ++ w4)
  obtain ⟨w6, e6, g6⟩ := putBitset_rt b.lastPattern (out ++ w1 ++ w2 ++ w3 ++ w4 ++ w5)
  obtain ⟨w7, e7, g7⟩ := Pending.rt h.2.2.2.2.1 (BusStats.rt h.2.2.2.2.2) (out ++ w1 ++ w2 ++ w3 ++ w4 ++ w5 ++ w6)
  refine ⟨w1 ++ (w2 ++ (w3 ++ (w4 ++ (w5 ++ (w6 ++ w7))))), ?_, fun rest => ?_⟩
  · simp only [Bus.serialize, e1, e2, e3, e4, e5, e6, e7]
    simp only [List.append_assoc]
  · simp [Bus.deserialize, g1, g2, g3, g4, g5, g6, g7]
    obtain ⟨a1, a2, a3, a4⟩ := hs
    cases b
    simp_all

theorem putState_rt (x : PinState) : RoundTrip (putState x) getState x := by
  intro out
  obtain ⟨w, e, g⟩ := put32_rt (n := x.code) (by cases x <;> decide) out
  refine ⟨w, e, fun rest => ?_⟩
  cases x <;> simp_all [getState, PinState.code, PinState.ofCode]

theorem putStates_rt (x : PinState × PinState) : RoundTrip (putStates x) getStates x := by
  intro out
  obtain ⟨w1, e1, g1⟩ := putState_rt x.1 out
  obtain ⟨w2, e2, g2⟩ := putState_rt x.2 (out ++ w1)
  refine ⟨w1 ++ w2, ?_, fun rest => ?_⟩
  · simp only [putStates, e1, e2]
    simp only [List.append_assoc]
  · simp [getStates, g1, g2]

def BitsetContainer.Fits {N : Nat} (d : BitsetContainer N) : Prop := d.count < 2 ^ 64 ∧ d.loadTime < 2 ^ 64

instance {N : Nat} (d : BitsetContainer N) : Decidable d.Fits := by unfold BitsetContainer.Fits; infer_instance

theorem BitsetContainer.rt {N : Nat} {d : BitsetContainer N} (h : d.Fits) : RoundTrip d.serialize (BitsetContainer.deserialize N) d := by
  intro out
  obtain ⟨w1, e1, g1⟩ := put64_rt h.1 out
  obtain ⟨w2, e2, g2⟩ := put64_rt h.2 (out ++ w1)
  obtain ⟨w3, e3, g3⟩ := putWord_rt d.bitset (out ++ w1 ++ w2)
  refine ⟨w1 ++ (w2 ++ w3), ?_, fun rest => ?_⟩
  · simp only [BitsetContainer.serialize, e1, e2, e3]
    simp only [List.append_assoc]
  · simp [BitsetContainer.deserialize, g1, g2, g3]

def Pin.Fits {N : Nat} (p : Pin N) : Prop :=
  p.lastSet < 2 ^ 64 ∧ p.storage.Fits ∧ p.pending.timestamp < 2 ^ 64 ∧ p.stats.Fits

instance {N : Nat} (p : Pin N) : Decidable p.Fits := by unfold Pin.Fits; infer_instance

theorem Pin.rt {N : Nat} {p p0 : Pin N} (h : p.Fits) (hs : p.idleState = p0.idleState) : RoundTrip p.serialize p0.deserialize p := by
  intro out
  obtain ⟨w1, e1, g1⟩ := putState_rt p.lastState out
  obtain ⟨w2, e2, g2⟩ := put64_rt h.1 (out ++ w1)
  obtain ⟨w3, e3, g3⟩ := putBool_rt p.initLoad (out ++ w1 ++ w2)
  obtain ⟨w4, e4, g4⟩ := BitsetContainer.rt h.2.1 (out ++ w1 ++ w2 ++ w3)
  obtain ⟨w5, e5, g5⟩ := Pending.rt h.2.2.1 (putStates_rt p.pending.stats) (out ++ w1 ++ w2 ++ w3 ++ w4)
  obtain ⟨w6, e6, g6⟩ := BusStats.rt h.2.2.2 (out ++ w1 ++ w2 ++ w3 ++ w4 ++ w5)
  refine ⟨w1 ++ (w2 ++ (w3 ++ (w4 ++ (w5 ++ w6)))), ?_, fun rest => ?_⟩
  · simp only [Pin.serialize, e1, e2, e3, e4, e5, e6]
    simp only [List.append_assoc]
  · simp [Pin.deserialize, g1, g2, g3, g4, g5, g6]
    cases p
    simp_all

def Clock.Fits (c : Clock) : Prop := fitsOpt c.lastStart ∧ c.stats.Fits

instance (c : Clock) : Decidable c.Fits := by unfold Clock.Fits; infer_instance

theorem Clock.rt {pad : Nat → UInt8} {c c0 : Clock} (h : c.Fits) (hs : c.dataRate = c0.dataRate) :
    RoundTrip (c.serialize pad) c0.deserialize c := by
  intro out
  obtain ⟨w1, e1, g1⟩ := putOpt_rt (pad := pad) h.1 out
  obtain ⟨w2, e2, g2⟩ := BusStats.rt h.2 (out ++ w1)
  refine ⟨w1 ++ w2, ?_, fun rest => ?_⟩
  · simp only [Clock.serialize, e1, e2]
    simp only [List.append_assoc]
  · simp [Clock.deserialize, g1, g2]
    cases c
    simp_all

/-- The rate is a `double`. -/
def Codec.Has (k : Codec) (r : Rate) : Prop := (k.rate r).length = 8 ∧ k.toRate (k.rate r) = some r

instance (k : Codec) (r : Rate) : Decidable (k.Has r) := by unfold Codec.Has; infer_instance

theorem putRate_rt {k : Codec} {r : Rate} (h : k.Has r) : RoundTrip (putRate k r) (getRate k) r := by
  intro out
  refine ⟨k.rate r, rfl, fun rest => ?_⟩
  simp [getRate, getBytes_append h.1, h.2]

def Toggling.Fits (k : Codec) (h : Toggling) : Prop :=
  h.width < 2 ^ 64 ∧ h.datarate < 2 ^ 64 ∧ k.Has h.togglingRate ∧ k.Has h.dutyCycle ∧ h.lastLength < 2 ^ 64 ∧ h.lastLoad < 2 ^ 64 ∧
    h.count < 2 ^ 64 ∧ h.disableTimestamp < 2 ^ 64 ∧ h.disableTime < 2 ^ 64

instance (k : Codec) (h : Toggling) : Decidable (h.Fits k) := by unfold Toggling.Fits; infer_instance

theorem Toggling.rt {k : Codec} {x : Toggling} (h : x.Fits k) : RoundTrip (x.serialize k) (Toggling.deserialize k) x := by
  intro out
  obtain ⟨h1, h2, h3, h4, h5, h6, h7, h8, h9⟩ := h
  have hc : ToggleIdle.ofCode x.idle.code = some x.idle := by cases x.idle <;> rfl
  obtain ⟨w1, e1, g1⟩ := put64_rt h1 out
  obtain ⟨w2, e2, g2⟩ := put64_rt h2 (out ++ w1)
  obtain ⟨w3, e3, g3⟩ := putRate_rt h3 (out ++ w1 ++ w2)
  obtain ⟨w4, e4, g4⟩ := putRate_rt h4 (out ++ w1 ++ w2 ++ w3)
  obtain ⟨w5, e5, g5⟩ := put64_rt h5 (out ++ w1 ++ w2 ++ w3 ++ w4)
  obtain ⟨w6, e6, g6⟩ := put64_rt h6 (out ++ w1 ++ w2 ++ w3 ++ w4 ++ w5)
  obtain ⟨w7, e7, g7⟩ := putBool_rt x.handled (out ++ w1 ++ w2 ++ w3 ++ w4 ++ w5 ++ w6)
  obtain ⟨w8, e8, g8⟩ := putBool_rt x.enabled (out ++ w1 ++ w2 ++ w3 ++ w4 ++ w5 ++ w6 ++ w7)
  obtain ⟨w9, e9, g9⟩ := put64_rt h7 (out ++ w1 ++ w2 ++ w3 ++ w4 ++ w5 ++ w6 ++ w7 ++ w8)
  obtain ⟨w10, e10, g10⟩ := put64_rt h8 (out ++ w1 ++ w2 ++ w3 ++ w4 ++ w5 ++ w6 ++ w7 ++ w8 ++ w9)
  obtain ⟨w11, e11, g11⟩ := put64_rt h9 (out ++ w1 ++ w2 ++ w3 ++ w4 ++ w5 ++ w6 ++ w7 ++ w8 ++ w9 ++ w10)
  obtain ⟨w12, e12, g12⟩ := put32_rt (n := x.idle.code) (by cases x.idle <;> decide) (out ++ w1 ++ w2 ++ w3 ++ w4 ++ w5 ++ w6 ++ w7 ++ w8 ++ w9 ++ w10 ++ w11)
  refine ⟨w1 ++ (w2 ++ (w3 ++ (w4 ++ (w5 ++ (w6 ++ (w7 ++ (w8 ++ (w9 ++ (w10 ++ (w11 ++ w12)))))))))), ?_, fun rest => ?_⟩
  · simp only [Toggling.serialize, e1, e2, e3, e4, e5, e6, e7, e8, e9, e10, e11, e12]
    simp only [List.append_assoc]
  · simp [Toggling.deserialize, g1, g2, g3, g4, g5, g6, g7, g8, g9, g10, g11, g12, hc]

def DataBus.Fits {N : Nat} (k : Codec) (d : DataBus N) : Prop :=
  d.busRead.Fits ∧ d.busWrite.Fits ∧ d.togglingRead.Fits k ∧ d.togglingWrite.Fits k

instance {N : Nat} (k : Codec) (d : DataBus N) : Decidable (d.Fits k) := by unfold DataBus.Fits; infer_instance

def DataBus.Same {N : Nat} (d d0 : DataBus N) : Prop := d.busRead.Same d0.busRead ∧ d.busWrite.Same d0.busWrite

theorem DataBus.rt {N : Nat} {k : Codec} {d d0 : DataBus N} (h : d.Fits k) (hs : d.Same d0) :
    RoundTrip (d.serialize k) (d0.deserialize k) d := by
  intro out
  have hc : DataBusMode.ofCode d.mode.code = some d.mode := by cases d.mode <;> rfl
  obtain ⟨w1, e1, g1⟩ := Bus.rt h.1 hs.1 out
  obtain ⟨w2, e2, g2⟩ := Bus.rt h.2.1 hs.2 (out ++ w1)
  obtain ⟨w3, e3, g3⟩ := Toggling.rt h.2.2.1 (out ++ w1 ++ w2)
  obtain ⟨w4, e4, g4⟩ := Toggling.rt h.2.2.2 (out ++ w1 ++ w2 ++ w3)
  obtain ⟨w5, e5, g5⟩ := put32_rt (n := d.mode.code) (by cases d.mode <;> decide) (out ++ w1 ++ w2 ++ w3 ++ w4)
  refine ⟨w1 ++ (w2 ++ (w3 ++ (w4 ++ w5))), ?_, fun rest => ?_⟩
  · simp only [DataBus.serialize, e1, e2, e3, e4, e5]
    simp only [List.append_assoc]
  · simp [DataBus.deserialize, g1, g2, g3, g4, g5, hc]

theorem putByte_rt (b : BitVec 8) : RoundTrip (putByte b) getByte b := fun _ => ⟨[UInt8.ofBitVec b], rfl, fun _ => rfl⟩

/-- A byte that is a value of `bool`. -/
def Flag (b : BitVec 8) : Prop := b = 0 ∨ b = 1

instance (b : BitVec 8) : Decidable (Flag b) := by unfold Flag; infer_instance

theorem putFlag_rt {b : BitVec 8} (h : Flag b) : RoundTrip (putByte b) getByteAsBool b := fun _ =>
  ⟨[UInt8.ofBitVec b], rfl, fun _ => by rcases h with h | h <;> subst h <;> rfl⟩

def LastBurst.Fits (l : LastBurst 8) : Prop :=
  l.start < 2 ^ 64 ∧ l.stop < 2 ^ 64 ∧ l.nChunks < 2 ^ 64 ∧ l.inversions.length < 2 ^ 64 ∧ l.lastbeat.length < 2 ^ 64

instance (l : LastBurst 8) : Decidable l.Fits := by unfold LastBurst.Fits; infer_instance

theorem LastBurst.rt {k : Codec} {l : LastBurst 8} (h : l.Fits) (hf : ∀ b ∈ l.lastbeat, Flag b) :
    RoundTrip l.serialize (LastBurst.deserialize k) { l with capacity := k.reserve l.inversions.length } := by
  intro out
  obtain ⟨w1, e1, g1⟩ := put64_rt h.1 out
  obtain ⟨w2, e2, g2⟩ := put64_rt h.2.1 (out ++ w1)
  obtain ⟨w3, e3, g3⟩ := put64_rt h.2.2.1 (out ++ w1 ++ w2)
  obtain ⟨w4, e4, g4⟩ := put64_rt (n := 0) (by decide) (out ++ w1 ++ w2 ++ w3)
  obtain ⟨w5, e5, g5⟩ := putBool_rt l.init (out ++ w1 ++ w2 ++ w3 ++ w4)
  obtain ⟨w6, e6, g6⟩ := put64_rt h.2.2.2.1 (out ++ w1 ++ w2 ++ w3 ++ w4 ++ w5)
  obtain ⟨w7, e7, g7⟩ := putEach_rt (f := putBool) (l := l.inversions) (fun x _ => putBool_rt x) (out ++ w1 ++ w2 ++ w3 ++ w4 ++ w5 ++ w6)
  obtain ⟨w8, e8, g8⟩ := put64_rt h.2.2.2.2 (out ++ w1 ++ w2 ++ w3 ++ w4 ++ w5 ++ w6 ++ w7)
  obtain ⟨w9, e9, g9⟩ := putEach_rt (f := putByte) (l := l.lastbeat) (fun x hx => putFlag_rt (hf x hx)) (out ++ w1 ++ w2 ++ w3 ++ w4 ++ w5 ++ w6 ++ w7 ++ w8)
  refine ⟨w1 ++ (w2 ++ (w3 ++ (w4 ++ (w5 ++ (w6 ++ (w7 ++ (w8 ++ w9))))))), ?_, fun rest => ?_⟩
  · simp only [LastBurst.serialize, e1, e2, e3, e4, e5, e6, e7, e8, e9]
    simp only [List.append_assoc]
  · simp [LastBurst.deserialize, g1, g2, g3, g4, g5, g6, g7, g8, g9]

def Dbi.Fits (d : Dbi 8) : Prop := d.lastRead.Fits ∧ d.lastWrite.Fits ∧ d.inverted.length < 2 ^ 64

instance (d : Dbi 8) : Decidable d.Fits := by unfold Dbi.Fits; infer_instance

/-- All bytes that are read back as `bool` are values of `bool`. -/
def Dbi.Readable (d : Dbi 8) : Prop := (∀ b ∈ d.lastRead.lastbeat, Flag b) ∧ ∀ b ∈ d.lastWrite.lastbeat, Flag b

instance (d : Dbi 8) : Decidable d.Readable := by unfold Dbi.Readable; infer_instance

/-- The DBI after saving and restoring: only the capacities may differ. -/
def Dbi.restored (k : Codec) (d : Dbi 8) : Dbi 8 :=
  { d with lastRead := { d.lastRead with capacity := k.reserve d.lastRead.inversions.length }
           lastWrite := { d.lastWrite with capacity := k.reserve d.lastWrite.inversions.length } }

theorem Dbi.rt {k : Codec} {d : Dbi 8} (h : d.Fits) (hf : d.Readable) : RoundTrip d.serialize (Dbi.deserialize k) (d.restored k) := by
  intro out
  obtain ⟨w1, e1, g1⟩ := putBool_rt d.enable out
  obtain ⟨w2, e2, g2⟩ := putBool_rt d.lastBurstRead (out ++ w1)
  obtain ⟨w3, e3, g3⟩ := LastBurst.rt (k := k) h.1 hf.1 (out ++ w1 ++ w2)
  obtain ⟨w4, e4, g4⟩ := LastBurst.rt (k := k) h.2.1 hf.2 (out ++ w1 ++ w2 ++ w3)
  obtain ⟨w5, e5, g5⟩ := put64_rt h.2.2 (out ++ w1 ++ w2 ++ w3 ++ w4)
  obtain ⟨w6, e6, g6⟩ := putEach_rt (f := putByte) (l := d.inverted) (fun x _ => putByte_rt x) (out ++ w1 ++ w2 ++ w3 ++ w4 ++ w5)
  refine ⟨w1 ++ (w2 ++ (w3 ++ (w4 ++ (w5 ++ w6)))), ?_, fun rest => ?_⟩
  · simp only [Dbi.serialize, e1, e2, e3, e4, e5, e6]
    simp only [List.append_assoc]
  · simp [Dbi.deserialize, g1, g2, g3, g4, g5, g6, Dbi.restored]

def RankIf.Fits (r : RankIf) : Prop :=
  r.seamlessRead < 2 ^ 64 ∧ r.seamlessWrite < 2 ^ 64 ∧ r.mergedRead < 2 ^ 64 ∧ r.mergedWrite < 2 ^ 64 ∧ r.mergedTimeRead < 2 ^ 64 ∧
    r.mergedTimeWrite < 2 ^ 64 ∧ r.lastReadEnd < 2 ^ 64 ∧ r.lastWriteEnd < 2 ^ 64

instance (r : RankIf) : Decidable r.Fits := by unfold RankIf.Fits; infer_instance

theorem RankIf.rt {r : RankIf} (h : r.Fits) : RoundTrip r.serialize RankIf.deserialize r := by
  intro out
  obtain ⟨h1, h2, h3, h4, h5, h6, h7, h8⟩ := h
  obtain ⟨w1, e1, g1⟩ := put64_rt h1 out
  obtain ⟨w2, e2, g2⟩ := put64_rt h2 (out ++ w1)
  obtain ⟨w3, e3, g3⟩ := put64_rt h3 (out ++ w1 ++ w2)
  obtain ⟨w4, e4, g4⟩ := put64_rt h4 (out ++ w1 ++ w2 ++ w3)
  obtain ⟨w5, e5, g5⟩ := put64_rt h5 (out ++ w1 ++ w2 ++ w3 ++ w4)
  obtain ⟨w6, e6, g6⟩ := put64_rt h6 (out ++ w1 ++ w2 ++ w3 ++ w4 ++ w5)
  obtain ⟨w7, e7, g7⟩ := put64_rt h7 (out ++ w1 ++ w2 ++ w3 ++ w4 ++ w5 ++ w6)
  obtain ⟨w8, e8, g8⟩ := put64_rt h8 (out ++ w1 ++ w2 ++ w3 ++ w4 ++ w5 ++ w6 ++ w7)
  refine ⟨w1 ++ (w2 ++ (w3 ++ (w4 ++ (w5 ++ (w6 ++ (w7 ++ w8)))))), ?_, fun rest => ?_⟩
  · simp only [RankIf.serialize, e1, e2, e3, e4, e5, e6, e7, e8]
    simp only [List.append_assoc]
  · simp [RankIf.deserialize, g1, g2, g3, g4, g5, g6, g7, g8]

theorem Desc.code_lt (d : Desc) : d.code < 2 ^ 32 := by
  cases d <;> first | decide | (rename_i i; have := i.isLt; simp only [Desc.code]; omega)

theorem Desc.ofCode_code (d : Desc) : Desc.ofCode d.code = some d := by
  cases d with
  | H | L | V | X | AP | BL => decide
  | A i | BG i | BA i | C i | R i | CID i => revert i; decide

theorem putSetting_rt (e : Desc × BitSpec) : RoundTrip (putSetting e) getSetting e := by
  intro out
  have h1 := Desc.ofCode_code e.1
  have h2 : BitSpec.ofCode e.2.code = some e.2 := by cases e.2 <;> rfl
  obtain ⟨w1, e1, g1⟩ := put32_rt (Desc.code_lt e.1) out
  obtain ⟨w2, e2, g2⟩ := put32_rt (n := e.2.code) (by cases e.2 <;> decide) (out ++ w1)
  refine ⟨w1 ++ w2, ?_, fun rest => ?_⟩
  · simp only [putSetting, e1, e2]
    simp only [List.append_assoc]
  · simp [getSetting, g1, g2, h1, h2]

theorem CaHandler.rt {k : Codec} {h h0 : CaHandler} (hf : (k.order h.settings).length < 2 ^ 64) :
    RoundTrip (h.serialize k) h0.deserialize { h0 with settings := Overrides.update [] (k.order h.settings) } := by
  intro out
  obtain ⟨w1, e1, g1⟩ := put64_rt hf out
  obtain ⟨w2, e2, g2⟩ := putEach_rt (f := putSetting) (l := k.order h.settings) (fun x _ => putSetting_rt x) (out ++ w1)
  refine ⟨w1 ++ w2, ?_, fun rest => ?_⟩
  · simp only [CaHandler.serialize, e1, e2]
    simp only [List.append_assoc]
  · simp [CaHandler.deserialize, g1, g2]

theorem CaHandler6.rt {h h0 : CaHandler6} (hf : h.extra.currentBurstLength < 2 ^ 64) :
    RoundTrip h.serialize h0.deserialize
      { h0 with extra := { h0.extra with currentBurstLength := h.extra.currentBurstLength, parityCheckMode := h.extra.parityCheckMode } } := by
  intro out
  obtain ⟨w1, e1, g1⟩ := put64_rt hf out
  obtain ⟨w2, e2, g2⟩ := putBool_rt h.extra.parityCheckMode (out ++ w1)
  obtain ⟨w3, e3, g3⟩ := put64_rt (n := 0) (by decide) (out ++ w1 ++ w2)
  refine ⟨w1 ++ (w2 ++ w3), ?_, fun rest => ?_⟩
  · simp only [CaHandler6.serialize, e1, e2, e3]
    simp only [List.append_assoc]
  · simp [CaHandler6.deserialize, g1, g2, g3]

end DRAMPower
