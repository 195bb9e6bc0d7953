import Verif.Model.Serialize
import Verif.Lemmas.Session

/-!
# Round trips of the byte streams, and the part of a core that no command touches
-/

namespace DRAMPower

open Ser

theorem le_length (k n : Nat) : (le k n).length = k := by simp [le]

theorem fromLe_le (k n : Nat) : fromLe (le k n) = n % 256 ^ k := by
  induction k generalizing n with
  | zero => simp [le, fromLe, Nat.mod_one]
  | succ k ih =>
    have : le (k + 1) n = UInt8.ofNat n :: le k (n / 256) := by
      simp only [le, List.range_succ_eq_map, List.map_cons, List.map_map, Nat.pow_zero, Nat.div_one, List.cons.injEq, true_and]
      apply List.map_congr_left
      intro i _
      simp only [Function.comp]
      rw [Nat.pow_succ', Nat.div_div_eq_div_mul]
    rw [this, fromLe, ih, UInt8.toNat_ofNat', show 256 ^ (k + 1) = 256 * 256 ^ k from Nat.pow_succ', Nat.mod_mul (a := 256)]

theorem getBytes_append {k : Nat} {w rest : Bytes} (h : w.length = k) : getBytes k (w ++ rest) = some (w, rest) := by
  subst h
  simp [getBytes]

/-- `get` reads back exactly what `put` wrote, whatever precedes and follows. -/
def RoundTrip {α : Type} (put : Bytes → Bytes) (get : Bytes → Option (α × Bytes)) (x : α) : Prop :=
  ∀ out, ∃ w, put out = out ++ w ∧ ∀ rest, get (w ++ rest) = some (x, rest)

theorem put64_rt {n : Nat} (h : n < 2 ^ 64) : RoundTrip (put64 n) get64 n := by
  intro out
  refine ⟨le 8 n, rfl, fun rest => ?_⟩
  rw [get64, getBytes_append (le_length 8 n), Option.map_some]
  simp only [fromLe_le]
  rw [Nat.mod_eq_of_lt (by omega)]

theorem put32_rt {n : Nat} (h : n < 2 ^ 32) : RoundTrip (put32 n) get32 n := by
  intro out
  refine ⟨le 4 n, rfl, fun rest => ?_⟩
  rw [get32, getBytes_append (le_length 4 n), Option.map_some]
  simp only [fromLe_le]
  rw [Nat.mod_eq_of_lt (by omega)]

theorem putBool_rt (b : Bool) : RoundTrip (putBool b) getBool b := by
  intro out
  refine ⟨_, rfl, fun rest => ?_⟩
  cases b <;> rfl

/-- An optional number fits in 64 bits. -/
def fitsOpt (x : Option Nat) : Prop := ∀ n ∈ x, n < 2 ^ 64

theorem putOptional_rt {pad n} (h : n < 2 ^ 64) : RoundTrip (putOptional pad n) getOptional (some n) := by
  intro out
  obtain ⟨w1, e1, g1⟩ := put64_rt h out
  have e1' : le 8 n = w1 := List.append_cancel_left e1
  refine ⟨w1 ++ ([1] ++ (List.range 7).map fun i => pad (out.length + 9 + i)), by simp [putOptional, e1'], fun rest => ?_⟩
  simp only [getOptional, List.append_assoc, g1, Option.bind_eq_bind, Option.bind_some]
  have : ∀ s, getBool ([1] ++ s) = some (true, s) := fun s => rfl
  simp only [this, Option.bind_some]
  rw [getBytes_append (by simp)]
  rfl

theorem putOpt_rt {pad x} (h : fitsOpt x) : RoundTrip (putOpt pad x) getOpt x := by
  intro out
  cases x with
  | none =>
    obtain ⟨w, e, g⟩ := putBool_rt false out
    exact ⟨w, e, fun rest => by simp [getOpt, g]⟩
  | some n =>
    obtain ⟨w, e, g⟩ := putBool_rt true out
    obtain ⟨w2, e2, g2⟩ := putOptional_rt (pad := pad) (h n rfl) (out ++ w)
    refine ⟨w ++ w2, ?_, fun rest => ?_⟩
    · simp only [putOpt, Option.isSome, e, e2, List.append_assoc]
    · simp [getOpt, g, g2]

/-- Fits in 64 bits. -/
structure Interval.Fits (i : Interval) : Prop where
  count : i.count < 2 ^ 64
  start : fitsOpt i.start
  stop : fitsOpt i.stop

theorem Interval.rt {pad} {i : Interval} (h : i.Fits) : RoundTrip (i.serialize pad) Interval.deserialize i := by
  intro out
  obtain ⟨w1, e1, g1⟩ := put64_rt h.count out
  obtain ⟨w2, e2, g2⟩ := putOpt_rt (pad := pad) h.start (out ++ w1)
  obtain ⟨w3, e3, g3⟩ := putOpt_rt (pad := pad) h.stop (out ++ w1 ++ w2)
  refine ⟨w1 ++ (w2 ++ w3), ?_, fun rest => ?_⟩
  · simp only [Interval.serialize, e1, e2, e3]
    simp only [List.append_assoc]
  · simp [Interval.deserialize, g1, g2, g3]

structure Counters.Fits (c : Counters) : Prop where
  act : c.act < 2 ^ 64
  pre : c.pre < 2 ^ 64
  reads : c.reads < 2 ^ 64
  writes : c.writes < 2 ^ 64
  refAllBank : c.refAllBank < 2 ^ 64
  refPerBank : c.refPerBank < 2 ^ 64
  refPerTwoBanks : c.refPerTwoBanks < 2 ^ 64
  refDualBanks : c.refDualBanks < 2 ^ 64
  refSameBank : c.refSameBank < 2 ^ 64
  readAuto : c.readAuto < 2 ^ 64
  writeAuto : c.writeAuto < 2 ^ 64

theorem Counters.rt {c : Counters} (h : c.Fits) : RoundTrip c.serialize Counters.deserialize c := by
  intro out
  obtain ⟨w1, e1, g1⟩ := put64_rt h.act out
  obtain ⟨w2, e2, g2⟩ := put64_rt h.pre (out ++ w1)
  obtain ⟨w3, e3, g3⟩ := put64_rt h.reads (out ++ w1 ++ w2)
  obtain ⟨w4, e4, g4⟩ := put64_rt h.writes (out ++ w1 ++ w2 ++ w3)
  obtain ⟨w5, e5, g5⟩ := put64_rt h.refAllBank (out ++ w1 ++ w2 ++ w3 ++ w4)
  obtain ⟨w6, e6, g6⟩ := put64_rt h.refPerBank (out ++ w1 ++ w2 ++ w3 ++ w4 ++ w5)
  obtain ⟨w7, e7, g7⟩ := put64_rt h.refPerTwoBanks (out ++ w1 ++ w2 ++ w3 ++ w4 ++ w5 ++ w6)
  obtain ⟨w8, e8, g8⟩ := put64_rt h.refDualBanks (out ++ w1 ++ w2 ++ w3 ++ w4 ++ w5 ++ w6 ++ w7)
  obtain ⟨w9, e9, g9⟩ := put64_rt h.refSameBank (out ++ w1 ++ w2 ++ w3 ++ w4 ++ w5 ++ w6 ++ w7 ++ w8)
  obtain ⟨w10, e10, g10⟩ := put64_rt h.readAuto (out ++ w1 ++ w2 ++ w3 ++ w4 ++ w5 ++ w6 ++ w7 ++ w8 ++ w9)
  obtain ⟨w11, e11, g11⟩ := put64_rt h.writeAuto (out ++ w1 ++ w2 ++ w3 ++ w4 ++ w5 ++ w6 ++ w7 ++ w8 ++ w9 ++ w10)
  refine ⟨w1 ++ (w2 ++ (w3 ++ (w4 ++ (w5 ++ (w6 ++ (w7 ++ (w8 ++ (w9 ++ (w10 ++ w11))))))))), ?_, fun rest => ?_⟩
  · simp only [Counters.serialize, e1, e2, e3, e4, e5, e6, e7, e8, e9, e10, e11]
    simp only [List.append_assoc]
  · simp [Counters.deserialize, g1, g2, g3, g4, g5, g6, g7, g8, g9, g10, g11]

structure Bank.Fits (b : Bank) : Prop where
  latestPre : b.latestPre < 2 ^ 64
  refreshEndTime : b.refreshEndTime < 2 ^ 64
  act : b.act.Fits
  powerDownAct : b.powerDownAct.Fits
  powerDownPre : b.powerDownPre.Fits
  counter : b.counter.Fits

theorem Bank.rt {pad} {b : Bank} (h : b.Fits) : RoundTrip (b.serialize pad) Bank.deserialize b := by
  intro out
  obtain ⟨w1, e1, g1⟩ := put32_rt (n := b.state.code) (by cases b.state <;> decide) out
  obtain ⟨w2, e2, g2⟩ := put64_rt h.latestPre (out ++ w1)
  obtain ⟨w3, e3, g3⟩ := put64_rt h.refreshEndTime (out ++ w1 ++ w2)
  obtain ⟨w4, e4, g4⟩ := Interval.rt (pad := pad) h.act (out ++ w1 ++ w2 ++ w3)
  obtain ⟨w5, e5, g5⟩ := Interval.rt (pad := pad) h.powerDownAct (out ++ w1 ++ w2 ++ w3 ++ w4)
  obtain ⟨w6, e6, g6⟩ := Interval.rt (pad := pad) h.powerDownPre (out ++ w1 ++ w2 ++ w3 ++ w4 ++ w5)
  obtain ⟨w7, e7, g7⟩ := Counters.rt h.counter (out ++ w1 ++ w2 ++ w3 ++ w4 ++ w5 ++ w6)
  refine ⟨w1 ++ (w2 ++ (w3 ++ (w4 ++ (w5 ++ (w6 ++ w7))))), ?_, fun rest => ?_⟩
  · simp only [Bank.serialize, e1, e2, e3, e4, e5, e6, e7]
    simp only [List.append_assoc]
  · have : BankState.ofCode b.state.code = some b.state := by cases b.state <;> rfl
    simp [Bank.deserialize, g1, g2, g3, g4, g5, g6, g7, this]

/-- Writing the elements `k, …, k + n - 1` of a vector and reading them back. -/
theorem readInto_rt {α : Type} (put : α → Bytes → Bytes) (get : Bytes → α → Option (α × Bytes)) (v : Nat → α) :
    ∀ (n k : Nat) (u : Nat → α), (∀ i, k ≤ i → i < k + n → RoundTrip (put (v i)) (fun s => get s (u i)) (v i)) →
    RoundTrip (fun out => (List.range' k n).foldl (fun out i => put (v i) out) out) (readInto get n k u)
      (fun i => if k ≤ i ∧ i < k + n then v i else u i) := by
  intro n
  induction n with
  | zero =>
    intro k u _ out
    refine ⟨[], by simp, fun rest => ?_⟩
    simp only [readInto, List.nil_append]
    congr
    funext i
    rw [if_neg (by omega)]
  | succ n ih =>
    intro k u h out
    obtain ⟨w1, e1, g1⟩ := h k (Nat.le_refl _) (by omega) out
    obtain ⟨w2, e2, g2⟩ := ih (k + 1) (upd u k (v k)) (fun i h1 h2 => by
      have := h i (by omega) (by omega)
      simpa [upd, show i ≠ k by omega] using this) (out ++ w1)
    refine ⟨w1 ++ w2, ?_, fun rest => ?_⟩
    · simp only [List.range'_succ, List.foldl_cons, e1]
      exact e2.trans (List.append_assoc ..)
    · simp only [readInto, List.append_assoc, g1, g2, Option.bind_eq_bind, Option.bind_some]
      congr
      funext i
      simp only [upd]
      by_cases hi : i = k
      · subst hi; rw [if_neg (by omega), if_pos rfl, if_pos (by omega)]
      · by_cases h2 : k ≤ i ∧ i < k + (n + 1)
        · rw [if_pos (by omega), if_pos h2]
        · rw [if_neg (by omega), if_neg hi, if_neg h2]

structure Rank.Fits (r : Rank) : Prop where
  endRefreshTime : r.endRefreshTime < 2 ^ 64
  selfRefreshCounter : r.selfRefreshCounter < 2 ^ 64
  deepSleepCounter : r.deepSleepCounter < 2 ^ 64
  pre : r.pre.Fits
  act : r.act.Fits
  ref : r.ref.Fits
  sref : r.sref.Fits
  powerDownAct : r.powerDownAct.Fits
  powerDownPre : r.powerDownPre.Fits
  deepSleepMode : r.deepSleepMode.Fits
  banks : ∀ b < r.nBanks, (r.banks b).Fits

theorem Rank.rt {pad} {r u : Rank} (h : r.Fits) (hn : u.nBanks = r.nBanks) (hb : ∀ b, r.nBanks ≤ b → u.banks b = r.banks b) :
    RoundTrip (r.serialize pad) (fun s => Rank.deserialize s u) r := by
  intro out
  obtain ⟨w1, e1, g1⟩ := put32_rt (n := r.memState.code) (by cases r.memState <;> decide) out
  obtain ⟨w2, e2, g2⟩ := put64_rt h.endRefreshTime (out ++ w1)
  obtain ⟨w3, e3, g3⟩ := put64_rt h.selfRefreshCounter (out ++ w1 ++ w2)
  obtain ⟨w4, e4, g4⟩ := put64_rt h.deepSleepCounter (out ++ w1 ++ w2 ++ w3)
  obtain ⟨w5, e5, g5⟩ := put64_rt h.endRefreshTime (out ++ w1 ++ w2 ++ w3 ++ w4)
  obtain ⟨w6, e6, g6⟩ := Interval.rt (pad := pad) h.pre (out ++ w1 ++ w2 ++ w3 ++ w4 ++ w5)
  obtain ⟨w7, e7, g7⟩ := Interval.rt (pad := pad) h.act (out ++ w1 ++ w2 ++ w3 ++ w4 ++ w5 ++ w6)
  obtain ⟨w8, e8, g8⟩ := Interval.rt (pad := pad) h.ref (out ++ w1 ++ w2 ++ w3 ++ w4 ++ w5 ++ w6 ++ w7)
  obtain ⟨w9, e9, g9⟩ := Interval.rt (pad := pad) h.sref (out ++ w1 ++ w2 ++ w3 ++ w4 ++ w5 ++ w6 ++ w7 ++ w8)
  obtain ⟨w10, e10, g10⟩ := Interval.rt (pad := pad) h.powerDownAct (out ++ w1 ++ w2 ++ w3 ++ w4 ++ w5 ++ w6 ++ w7 ++ w8 ++ w9)
  obtain ⟨w11, e11, g11⟩ := Interval.rt (pad := pad) h.powerDownPre (out ++ w1 ++ w2 ++ w3 ++ w4 ++ w5 ++ w6 ++ w7 ++ w8 ++ w9 ++ w10)
  obtain ⟨w12, e12, g12⟩ := Interval.rt (pad := pad) h.deepSleepMode
    (out ++ w1 ++ w2 ++ w3 ++ w4 ++ w5 ++ w6 ++ w7 ++ w8 ++ w9 ++ w10 ++ w11)
  obtain ⟨w13, e13, g13⟩ := readInto_rt (fun b => Bank.serialize pad b) (fun s _ => Bank.deserialize s) r.banks r.nBanks 0 u.banks
    (fun i _ hi => Bank.rt (h.banks i (by omega)))
    (out ++ w1 ++ w2 ++ w3 ++ w4 ++ w5 ++ w6 ++ w7 ++ w8 ++ w9 ++ w10 ++ w11 ++ w12)
  have hbanks : (fun i => if 0 ≤ i ∧ i < 0 + r.nBanks then r.banks i else u.banks i) = r.banks := by
    funext i
    split
    · rfl
    · exact hb i (by omega)
  rw [hbanks] at g13
  refine ⟨w1 ++ (w2 ++ (w3 ++ (w4 ++ (w5 ++ (w6 ++ (w7 ++ (w8 ++ (w9 ++ (w10 ++ (w11 ++ (w12 ++ w13))))))))))), ?_, fun rest => ?_⟩
  · simp only [Rank.serialize, e1, e2, e3, e4, e5, e6, e7, e8, e9, e10, e11, e12]
    rw [List.range_eq_range']
    refine Eq.trans e13 ?_
    simp only [List.append_assoc]
  · have : MemState.ofCode r.memState.code = some r.memState := by cases r.memState <;> rfl
    simp [Rank.deserialize, g1, g2, g3, g4, g5, g6, g7, g8, g9, g10, g11, g12, this, hn, g13]

structure Core.Fits (ms : MemSpec) (c : Core) : Prop where
  last : c.last < 2 ^ 64
  ranks : ∀ i < ms.numberOfRanks, (c.ranks i).Fits

theorem Core.rt {pad ms} {c u : Core} (h : c.Fits ms) (hq : u.queue = c.queue)
    (hn : ∀ i < ms.numberOfRanks, (u.ranks i).nBanks = (c.ranks i).nBanks)
    (hb : ∀ i < ms.numberOfRanks, ∀ b, (c.ranks i).nBanks ≤ b → (u.ranks i).banks b = (c.ranks i).banks b)
    (hr : ∀ i, ms.numberOfRanks ≤ i → u.ranks i = c.ranks i) :
    RoundTrip (c.serialize pad ms) (u.deserialize ms) c := by
  intro out
  obtain ⟨w1, e1, g1⟩ := put64_rt h.last out
  obtain ⟨w2, e2, g2⟩ := readInto_rt (fun r => Rank.serialize pad r) Rank.deserialize c.ranks ms.numberOfRanks 0 u.ranks
    (fun i _ hi => Rank.rt (h.ranks i (by omega)) (hn i (by omega)) (hb i (by omega))) (out ++ w1)
  have hranks : (fun i => if 0 ≤ i ∧ i < 0 + ms.numberOfRanks then c.ranks i else u.ranks i) = c.ranks := by
    funext i
    split
    · rfl
    · exact hr i (by omega)
  rw [hranks] at g2
  refine ⟨w1 ++ w2, ?_, fun rest => ?_⟩
  · simp only [Core.serialize, e1]
    rw [List.range_eq_range']
    exact e2.trans (List.append_assoc ..)
  · simp [Core.deserialize, g1, g2, hq]

/-! ## Fitting is decidable (used in examples only) -/

instance (x : Option Nat) : Decidable (fitsOpt x) :=
  match x with
  | none => isTrue (by intro n h; cases h)
  | some n => decidable_of_iff (n < 2 ^ 64) ⟨fun h m hm => by cases hm; exact h, fun h => h n rfl⟩

instance (i : Interval) : Decidable i.Fits :=
  decidable_of_iff (i.count < 2 ^ 64 ∧ fitsOpt i.start ∧ fitsOpt i.stop)
    ⟨fun ⟨h0, h1, h2⟩ => ⟨h0, h1, h2⟩, fun ⟨h0, h1, h2⟩ => ⟨h0, h1, h2⟩⟩

instance (c : Counters) : Decidable c.Fits :=
  decidable_of_iff (c.act < 2 ^ 64 ∧ c.pre < 2 ^ 64 ∧ c.reads < 2 ^ 64 ∧ c.writes < 2 ^ 64 ∧ c.refAllBank < 2 ^ 64 ∧ c.refPerBank < 2 ^ 64 ∧ c.refPerTwoBanks < 2 ^ 64 ∧ c.refDualBanks < 2 ^ 64 ∧ c.refSameBank < 2 ^ 64 ∧ c.readAuto < 2 ^ 64 ∧ c.writeAuto < 2 ^ 64)
    ⟨fun ⟨h0, h1, h2, h3, h4, h5, h6, h7, h8, h9, h10⟩ => ⟨h0, h1, h2, h3, h4, h5, h6, h7, h8, h9, h10⟩, fun ⟨h0, h1, h2, h3, h4, h5, h6, h7, h8, h9, h10⟩ => ⟨h0, h1, h2, h3, h4, h5, h6, h7, h8, h9, h10⟩⟩

instance (b : Bank) : Decidable b.Fits :=
  decidable_of_iff (b.latestPre < 2 ^ 64 ∧ b.refreshEndTime < 2 ^ 64 ∧ b.act.Fits ∧ b.powerDownAct.Fits ∧ b.powerDownPre.Fits ∧ b.counter.Fits)
    ⟨fun ⟨h0, h1, h2, h3, h4, h5⟩ => ⟨h0, h1, h2, h3, h4, h5⟩, fun ⟨h0, h1, h2, h3, h4, h5⟩ => ⟨h0, h1, h2, h3, h4, h5⟩⟩

instance (r : Rank) : Decidable r.Fits :=
  decidable_of_iff (r.endRefreshTime < 2 ^ 64 ∧ r.selfRefreshCounter < 2 ^ 64 ∧ r.deepSleepCounter < 2 ^ 64 ∧ r.pre.Fits ∧ r.act.Fits ∧ r.ref.Fits ∧ r.sref.Fits ∧ r.powerDownAct.Fits ∧ r.powerDownPre.Fits ∧ r.deepSleepMode.Fits ∧ ∀ b < r.nBanks, (r.banks b).Fits)
    ⟨fun ⟨h0, h1, h2, h3, h4, h5, h6, h7, h8, h9, h10⟩ => ⟨h0, h1, h2, h3, h4, h5, h6, h7, h8, h9, h10⟩, fun ⟨h0, h1, h2, h3, h4, h5, h6, h7, h8, h9, h10⟩ => ⟨h0, h1, h2, h3, h4, h5, h6, h7, h8, h9, h10⟩⟩

instance (ms : MemSpec) (c : Core) : Decidable (c.Fits ms) :=
  decidable_of_iff (c.last < 2 ^ 64 ∧ ∀ i < ms.numberOfRanks, (c.ranks i).Fits)
    ⟨fun ⟨h0, h1⟩ => ⟨h0, h1⟩, fun ⟨h0, h1⟩ => ⟨h0, h1⟩⟩

end DRAMPower
