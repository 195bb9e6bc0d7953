import Verif.Lemmas.RestoreKept
import Verif.Lemmas.InterfaceSerialize
import Verif.Lemmas.Admissible

/-!
# Round trip of an interface
-/

namespace DRAMPower
open Ser Spec
variable {std : Std} {N : Nat} {sp : IfSpec} {i i' i0 : Interface std N} {k : Codec}

/-- Every stored number fits in 64 bits and the rates are representable. -/
structure Interface.Fits (k : Codec) (i : Interface std N) : Prop where
  last : i.last < 2 ^ 64
  settings : i.ca.settings.length < 2 ^ 64
  burst : i.ca6.extra.currentBurstLength < 2 ^ 64
  cmdBus : i.cmdBus.Fits
  dataBus : i.dataBus.Fits k
  readDQS : i.readDQS.Fits
  writeDQS : i.writeDQS.Fits
  wck : i.wck.Fits
  clock : i.clock.Fits
  dbi : i.dbi.Fits
  ranks : ∀ r ∈ i.ranks, r.Fits
  pinsRead : ∀ p ∈ i.pinsRead, p.Fits
  pinsWrite : ∀ p ∈ i.pinsWrite, p.Fits

theorem Interface.fits_iff (k : Codec) (i : Interface std N) : i.Fits k ↔
    i.last < 2 ^ 64 ∧ i.ca.settings.length < 2 ^ 64 ∧ i.ca6.extra.currentBurstLength < 2 ^ 64 ∧ i.cmdBus.Fits ∧ i.dataBus.Fits k ∧
    i.readDQS.Fits ∧ i.writeDQS.Fits ∧ i.wck.Fits ∧ i.clock.Fits ∧ i.dbi.Fits ∧ (∀ r ∈ i.ranks, r.Fits) ∧
    (∀ p ∈ i.pinsRead, p.Fits) ∧ ∀ p ∈ i.pinsWrite, p.Fits :=
  ⟨fun h => ⟨h.1, h.2, h.3, h.4, h.5, h.6, h.7, h.8, h.9, h.10, h.11, h.12, h.13⟩,
   fun ⟨a, b, c, d, e, f, g, h, i, j, k, l, m⟩ => ⟨a, b, c, d, e, f, g, h, i, j, k, l, m⟩⟩

instance (k : Codec) (i : Interface std N) : Decidable (i.Fits k) := decidable_of_iff' _ (i.fits_iff k)

/-- The handlers after restoring. -/
def Interface.heldCa (k : Codec) (i i0 : Interface std N) : CaHandler :=
  if std = .lpddr6 then i0.ca else { i0.ca with settings := Overrides.update [] (k.order i.ca.settings) }

/-- See `heldCa`. -/
def Interface.heldCa6 (i i0 : Interface std N) : CaHandler6 :=
  if std = .lpddr6 then
    { i0.ca6 with extra := { i0.ca6.extra with currentBurstLength := i.ca6.extra.currentBurstLength
                                               parityCheckMode := i.ca6.extra.parityCheckMode } }
  else i0.ca6

/-- The first part of the restored interface. -/
def Interface.common (k : Codec) (i i0 : Interface std N) : Interface std N :=
  Interface.setSecond { i0 with
    last := i.last, ca := i.heldCa k i0, ca6 := i.heldCa6 i0, cmdBus := i.cmdBus, dataBus := i.dataBus, readDQS := i.readDQS, clock := i.clock }
    i.second

/-- The restored interface. -/
def Interface.restored (k : Codec) (i i0 : Interface std N) : Interface std N :=
  if std = .ddr4 then
    { i.common k i0 with dbi := i.dbi.restored k, ranks := i.ranks, pinsRead := i.pinsRead, pinsWrite := i.pinsWrite }
  else i.common k i0

theorem Interface.handler_rt (hk : Faithful k sp) (hf : i.Fits k) :
    RoundTrip (i.putHandler k) i0.getHandler (i.heldCa k i0, i.heldCa6 i0) := by
  intro out
  unfold Interface.putHandler Interface.getHandler Interface.heldCa Interface.heldCa6
  split
  · obtain ⟨w, e, g⟩ := CaHandler6.rt (h := i.ca6) (h0 := i0.ca6) hf.burst out
    exact ⟨w, e, fun rest => by rw [g]; rfl⟩
  · obtain ⟨w, e, g⟩ := CaHandler.rt (k := k) (h := i.ca) (h0 := i0.ca) (by rw [(hk.order _).length_eq]; exact hf.settings) out
    exact ⟨w, e, fun rest => by rw [g]; rfl⟩

theorem Interface.common_rt (hk : Faithful k sp) (h : Kept k sp i0 i) (hf : i.Fits k) :
    RoundTrip (i.putCommon k) (i0.getCommon k) (i.common k i0) := by
  intro out
  have h6 : i.second.Fits ∧ i.second.dataRate = i0.second.dataRate := by
    unfold Interface.second
    split
    · exact ⟨hf.wck, h.wckRate⟩
    · exact ⟨hf.writeDQS, h.writeRate⟩
  obtain ⟨w1, e1, g1⟩ := put64_rt hf.last out
  obtain ⟨w2, e2, g2⟩ := Interface.handler_rt (i0 := i0) hk hf (out ++ w1)
  obtain ⟨w3, e3, g3⟩ := Bus.rt hf.cmdBus h.cmdBus (out ++ w1 ++ w2)
  obtain ⟨w4, e4, g4⟩ := DataBus.rt hf.dataBus h.dataBus (out ++ w1 ++ w2 ++ w3)
  obtain ⟨w5, e5, g5⟩ := Clock.rt (pad := k.pad) hf.readDQS h.readRate (out ++ w1 ++ w2 ++ w3 ++ w4)
  obtain ⟨w6, e6, g6⟩ := Clock.rt (pad := k.pad) h6.1 h6.2 (out ++ w1 ++ w2 ++ w3 ++ w4 ++ w5)
  obtain ⟨w7, e7, g7⟩ := Clock.rt (pad := k.pad) hf.clock h.clockRate (out ++ w1 ++ w2 ++ w3 ++ w4 ++ w5 ++ w6)
  refine ⟨w1 ++ (w2 ++ (w3 ++ (w4 ++ (w5 ++ (w6 ++ w7))))), ?_, fun rest => ?_⟩
  · simp only [Interface.putCommon, e1, e2, e3, e4, e5, e6, e7]
    simp only [List.append_assoc]
  · simp [Interface.getCommon, Interface.common, g1, g2, g3, g4, g5, g6, g7]

theorem Interface.rt (hk : Faithful k sp) (h : Kept k sp i0 i) (h0 : Kept k sp i0 i0) (hf : i.Fits k) (hr : std = .ddr4 → i.dbi.Readable) :
    RoundTrip (i.serialize k) (i0.deserialize k) (i.restored k i0) := by
  intro out
  obtain ⟨w1, e1, g1⟩ := Interface.common_rt hk h hf out
  by_cases hs : std = .ddr4
  · obtain ⟨w2, e2, g2⟩ := Dbi.rt (k := k) hf.dbi (hr hs) (out ++ w1)
    have hc : (i.common k i0).ranks = i0.ranks ∧ (i.common k i0).pinsRead = i0.pinsRead ∧ (i.common k i0).pinsWrite = i0.pinsWrite := by
      unfold Interface.common Interface.setSecond
      split <;> exact ⟨rfl, rfl, rfl⟩
    obtain ⟨w3, e3, g3⟩ := putEach_into (f := RankIf.serialize) (g := fun _ => RankIf.deserialize) h.ranks.symm
      (fun x hx _ _ => RankIf.rt (hf.ranks x hx)) (out ++ w1 ++ w2)
    obtain ⟨w4, e4, g4⟩ := putEach_into (f := Pin.serialize) (g := Pin.deserialize) h.lenRead.symm
      (fun x hx y hy => Pin.rt (hf.pinsRead x hx) ((h.idleRead x hx).trans (h0.idleRead y hy).symm)) (out ++ w1 ++ w2 ++ w3)
    obtain ⟨w5, e5, g5⟩ := putEach_into (f := Pin.serialize) (g := Pin.deserialize) h.lenWrite.symm
      (fun x hx y hy => Pin.rt (hf.pinsWrite x hx) ((h.idleWrite x hx).trans (h0.idleWrite y hy).symm)) (out ++ w1 ++ w2 ++ w3 ++ w4)
    refine ⟨w1 ++ (w2 ++ (w3 ++ (w4 ++ w5))), ?_, fun rest => ?_⟩
    · simp only [Interface.serialize, hs, if_true, e1, e2, e3, e4, e5]
      simp only [List.append_assoc]
    · unfold Interface.deserialize Interface.restored
      simp only [List.append_assoc]
      rw [g1]
      simp only [Option.bind_eq_bind, Option.bind_some]
      rw [if_pos hs, if_pos hs]
      unfold Interface.getRest
      rw [hc.1, hc.2.1, hc.2.2]
      simp [g2, g3, g4, g5]
  · refine ⟨w1, ?_, fun rest => ?_⟩
    · simp only [Interface.serialize, if_neg hs, e1]
    · unfold Interface.deserialize Interface.restored
      rw [g1]
      simp only [Option.bind_eq_bind, Option.bind_some]
      rw [if_neg hs, if_neg hs]
      rfl

/-! ## Restoring undefined values -/

theorem getFlags_none {l : List (BitVec 8)} (h : ¬ ∀ b ∈ l, Flag b) (out rest : Bytes) :
    ∃ w, putEach putByte l out = out ++ w ∧ getMany getByteAsBool l.length (w ++ rest) = none := by
  induction l generalizing out with
  | nil => simp at h
  | cons b l ih =>
    have hw : ∀ (l : List (BitVec 8)) (o : Bytes), putEach putByte l o = o ++ l.map UInt8.ofBitVec := by
      intro l
      induction l with
      | nil => intro o; simp [putEach]
      | cons x l ih2 =>
        intro o
        show putEach putByte l (o ++ [UInt8.ofBitVec x]) = _
        rw [ih2]
        simp
    refine ⟨(b :: l).map UInt8.ofBitVec, hw _ _, ?_⟩
    show (getByteAsBool (UInt8.ofBitVec b :: (l.map UInt8.ofBitVec ++ rest)) >>= _) = none
    by_cases hb : Flag b
    · have hl : ¬ ∀ b ∈ l, Flag b := fun hl => h fun x hx => by
        rcases List.mem_cons.1 hx with rfl | hx
        · exact hb
        · exact hl x hx
      obtain ⟨w, e, g⟩ := ih hl []
      rw [hw l [], List.nil_append, List.nil_append] at e
      rw [← e] at g
      obtain ⟨w', e', g'⟩ := putFlag_rt hb []
      have hw' : w' = [UInt8.ofBitVec b] := by
        have := e'
        simp only [putByte, List.nil_append] at this
        exact this.symm
      have g2 := g' (l.map UInt8.ofBitVec ++ rest)
      rw [hw'] at g2
      simp only [List.singleton_append] at g2
      rw [g2]
      simp [g]
    · have hbv : ¬ (UInt8.ofBitVec b = 0) ∧ ¬ (UInt8.ofBitVec b = 1) := by
        constructor <;> intro e <;> apply hb
        · left; have := congrArg UInt8.toBitVec e; exact this
        · right; have := congrArg UInt8.toBitVec e; exact this
      have : getByteAsBool (UInt8.ofBitVec b :: (l.map UInt8.ofBitVec ++ rest)) = none := by
        simp [getByteAsBool, getBool, hbv.1, hbv.2]
      rw [this]
      rfl

theorem LastBurst.rt_none {l : LastBurst 8} (h : l.Fits) (hf : ¬ ∀ b ∈ l.lastbeat, Flag b) (out rest : Bytes) :
    ∃ w, l.serialize out = out ++ w ∧ LastBurst.deserialize k (w ++ rest) = none := by
  obtain ⟨w1, e1, g1⟩ := put64_rt h.1 out
  obtain ⟨w2, e2, g2⟩ := put64_rt h.2.1 (out ++ w1)
  obtain ⟨w3, e3, g3⟩ := put64_rt h.2.2.1 (out ++ w1 ++ w2)
  obtain ⟨w4, e4, g4⟩ := put64_rt (n := 0) (by decide) (out ++ w1 ++ w2 ++ w3)
  obtain ⟨w5, e5, g5⟩ := putBool_rt l.init (out ++ w1 ++ w2 ++ w3 ++ w4)
  obtain ⟨w6, e6, g6⟩ := put64_rt h.2.2.2.1 (out ++ w1 ++ w2 ++ w3 ++ w4 ++ w5)
  obtain ⟨w7, e7, g7⟩ := putEach_rt (f := putBool) (l := l.inversions) (fun x _ => putBool_rt x) (out ++ w1 ++ w2 ++ w3 ++ w4 ++ w5 ++ w6)
  obtain ⟨w8, e8, g8⟩ := put64_rt h.2.2.2.2 (out ++ w1 ++ w2 ++ w3 ++ w4 ++ w5 ++ w6 ++ w7)
  obtain ⟨w9, e9, g9⟩ := getFlags_none hf (out ++ w1 ++ w2 ++ w3 ++ w4 ++ w5 ++ w6 ++ w7 ++ w8) rest
  refine ⟨w1 ++ (w2 ++ (w3 ++ (w4 ++ (w5 ++ (w6 ++ (w7 ++ (w8 ++ w9))))))), ?_, ?_⟩
  · simp only [LastBurst.serialize, e1, e2, e3, e4, e5, e6, e7, e8, e9]
    simp only [List.append_assoc]
  · simp [LastBurst.deserialize, g1, g2, g3, g4, g5, g6, g7, g8, g9]

theorem putBytes_eq : ∀ (l : List (BitVec 8)) (o : Bytes), ∃ w, putEach putByte l o = o ++ w
  | [], o => ⟨[], by simp [putEach]⟩
  | x :: l, o => by
    obtain ⟨w, e⟩ := putBytes_eq l (o ++ [UInt8.ofBitVec x])
    exact ⟨[UInt8.ofBitVec x] ++ w, by rw [← List.append_assoc]; exact e⟩

theorem LastBurst.serialize_eq {l : LastBurst 8} (h : l.Fits) (out : Bytes) : ∃ w, l.serialize out = out ++ w := by
  by_cases hf : ∀ b ∈ l.lastbeat, Flag b
  · obtain ⟨w, e, _⟩ := LastBurst.rt (k := ⟨fun _ => 0, fun _ => [], fun _ => none, id, id⟩) h hf out
    exact ⟨w, e⟩
  · obtain ⟨w, e, _⟩ := LastBurst.rt_none (k := ⟨fun _ => 0, fun _ => [], fun _ => none, id, id⟩) h hf out []
    exact ⟨w, e⟩

theorem Dbi.rt_none {d : Dbi 8} (h : d.Fits) (hf : ¬ d.Readable) (out : Bytes) :
    ∃ w, d.serialize out = out ++ w ∧ ∀ rest, Dbi.deserialize k (w ++ rest) = none := by
  obtain ⟨w1, e1, g1⟩ := putBool_rt d.enable out
  obtain ⟨w2, e2, g2⟩ := putBool_rt d.lastBurstRead (out ++ w1)
  obtain ⟨w3, e3⟩ := LastBurst.serialize_eq h.1 (out ++ w1 ++ w2)
  obtain ⟨w4, e4⟩ := LastBurst.serialize_eq h.2.1 (out ++ w1 ++ w2 ++ w3)
  obtain ⟨w5, e5, g5⟩ := put64_rt h.2.2 (out ++ w1 ++ w2 ++ w3 ++ w4)
  obtain ⟨w6, e6⟩ := putBytes_eq d.inverted (out ++ w1 ++ w2 ++ w3 ++ w4 ++ w5)
  refine ⟨w1 ++ (w2 ++ (w3 ++ (w4 ++ (w5 ++ w6)))), ?_, fun rest => ?_⟩
  · simp only [Dbi.serialize, e1, e2, e3, e4, e5, e6]
    simp only [List.append_assoc]
  · by_cases h1 : ∀ b ∈ d.lastRead.lastbeat, Flag b
    · have h2 : ¬ ∀ b ∈ d.lastWrite.lastbeat, Flag b := fun h2 => hf ⟨h1, h2⟩
      obtain ⟨v3, e3', g3⟩ := LastBurst.rt (k := k) h.1 h1 (out ++ w1 ++ w2)
      have : v3 = w3 := by rw [e3] at e3'; exact (List.append_cancel_left e3').symm
      subst this
      obtain ⟨v4, e4', g4⟩ := LastBurst.rt_none (k := k) h.2.1 h2 (out ++ w1 ++ w2 ++ v3) (w5 ++ (w6 ++ rest))
      have : v4 = w4 := by rw [e4] at e4'; exact (List.append_cancel_left e4').symm
      subst this
      simp [Dbi.deserialize, g1, g2, g3, g4]
    · obtain ⟨v3, e3', g3⟩ := LastBurst.rt_none (k := k) h.1 h1 (out ++ w1 ++ w2) (w4 ++ (w5 ++ (w6 ++ rest)))
      have : v3 = w3 := by rw [e3] at e3'; exact (List.append_cancel_left e3').symm
      subst this
      simp [Dbi.deserialize, g1, g2, g3]

/-- Restoring a byte other than 0 and 1 as a `bool` is undefined. -/
theorem Interface.rt_none (hk : Faithful k sp) (h : Kept k sp i0 i) (h0 : Kept k sp i0 i0) (hf : i.Fits k) (hs : std = .ddr4) (hr : ¬ i.dbi.Readable)
    (out : Bytes) : ∃ w, i.serialize k out = out ++ w ∧ ∀ rest, i0.deserialize k (w ++ rest) = none := by
  obtain ⟨w1, e1, g1⟩ := Interface.common_rt hk h hf out
  obtain ⟨w2, e2, g2⟩ := Dbi.rt_none (k := k) hf.dbi hr (out ++ w1)
  obtain ⟨w3, e3, g3⟩ := putEach_into (f := RankIf.serialize) (g := fun _ => RankIf.deserialize) h.ranks.symm
    (fun x hx _ _ => RankIf.rt (hf.ranks x hx)) (out ++ w1 ++ w2)
  obtain ⟨w4, e4, _⟩ := putEach_into (f := Pin.serialize) (g := Pin.deserialize) h.lenRead.symm
    (fun x hx y hy => Pin.rt (hf.pinsRead x hx) ((h.idleRead x hx).trans (h0.idleRead y hy).symm)) (out ++ w1 ++ w2 ++ w3)
  obtain ⟨w5, e5, _⟩ := putEach_into (f := Pin.serialize) (g := Pin.deserialize) h.lenWrite.symm
    (fun x hx y hy => Pin.rt (hf.pinsWrite x hx) ((h.idleWrite x hx).trans (h0.idleWrite y hy).symm)) (out ++ w1 ++ w2 ++ w3 ++ w4)
  refine ⟨w1 ++ (w2 ++ (w3 ++ (w4 ++ w5))), ?_, fun rest => ?_⟩
  · simp only [Interface.serialize, hs, if_true, e1, e2, e3, e4, e5]
    simp only [List.append_assoc]
  · unfold Interface.deserialize
    simp only [List.append_assoc]
    rw [g1]
    simp only [Option.bind_eq_bind, Option.bind_some]
    rw [if_pos hs]
    unfold Interface.getRest
    simp [g2]

/-! ## The restored interface behaves alike -/

/-- What is not written is as in the fresh object. -/
structure Unsaved (i0 i : Interface std N) : Prop where
  dbi : std ≠ .ddr4 → i.dbi = i0.dbi
  pinsRead : std ≠ .ddr4 → i.pinsRead = i0.pinsRead
  pinsWrite : std ≠ .ddr4 → i.pinsWrite = i0.pinsWrite
  metaData : i.formatter.metaData = i0.formatter.metaData
  enabled : i.enabled = i0.enabled

theorem Dbi.restored_alike (hk : Faithful k sp) {d : Dbi 8} (h : ∀ r, (d.last r).Room k) : d.Alike (d.restored k) := by
  refine ⟨rfl, rfl, rfl, fun r => ?_⟩
  cases r
  · exact ⟨rfl, rfl, rfl, rfl, rfl, rfl, hk.enough _, (h false).2⟩
  · exact ⟨rfl, rfl, rfl, rfl, rfl, rfl, hk.enough _, (h true).2⟩

theorem Dbi.alike_self {d : Dbi 8} (h : ∀ r, (d.last r).Room k) : d.Alike d :=
  ⟨rfl, rfl, rfl, fun r => ⟨rfl, rfl, rfl, rfl, rfl, rfl, (h r).1, Nat.le_refl _⟩⟩

theorem Interface.restored_alike (hk : Faithful k sp) (h : Kept k sp i0 i) (hu : Unsaved i0 i) : i.Alike (i.restored k i0) := by
  have hca : ∀ d, (i.heldCa k i0).settings.get d = i.ca.settings.get d := by
    intro d
    unfold Interface.heldCa
    split
    · rename_i hs
      rw [h.only6 hs]
    · exact get_restored h.distinct (hk.order _) d
  have hca6 : (i.heldCa6 i0).extra = i.ca6.extra := by
    unfold Interface.heldCa6
    split
    · dsimp only
      rw [← h.groups]
    · rename_i hs
      exact (h.no6 hs).symm
  have hc : ∀ j : Interface std N, j = i.common k i0 → j.last = i.last ∧ j.ca = i.heldCa k i0 ∧ j.ca6 = i.heldCa6 i0 ∧
      j.cmdBus = i.cmdBus ∧ j.dataBus = i.dataBus ∧ j.readDQS = i.readDQS ∧ j.writeDQS = i.writeDQS ∧ j.wck = i.wck ∧ j.clock = i.clock ∧
      j.formatter = i0.formatter ∧ j.enabled = i0.enabled ∧ j.dbi = i0.dbi ∧ j.pinsRead = i0.pinsRead ∧ j.pinsWrite = i0.pinsWrite ∧
      j.ranks = i0.ranks := by
    intro j hj
    subst hj
    unfold Interface.common Interface.setSecond Interface.second
    split
    · rename_i hs
      exact ⟨rfl, rfl, rfl, rfl, rfl, rfl, (h.noWrite hs).symm, rfl, rfl, rfl, rfl, rfl, rfl, rfl, rfl⟩
    · rename_i hs
      exact ⟨rfl, rfl, rfl, rfl, rfl, rfl, rfl, (h.noWck hs).symm, rfl, rfl, rfl, rfl, rfl, rfl, rfl⟩
  obtain ⟨c1, c2, c3, c4, c5, c6, c7, c8, c9, c10, c11, c12, c13, c14, c15⟩ := hc _ rfl
  unfold Interface.restored
  split
  · exact { last := c1, settings := by show ∀ d, (i.common k i0).ca.settings.get d = _; rw [c2]; exact hca
            noLast := h.noLast, extra := by show (i.common k i0).ca6.extra = _; rw [c3]; exact hca6
            cmdBus := c4, dataBus := c5, readDQS := c6, writeDQS := c7, wck := c8, clock := c9
            dbi := Dbi.restored_alike hk h.room, pinsRead := rfl, pinsWrite := rfl, ranks := rfl
            metaData := by show (i.common k i0).formatter.metaData = _; rw [c10]; exact hu.metaData.symm
            enabled := c11.trans hu.enabled.symm }
  · rename_i hs
    exact { last := c1, settings := by rw [c2]; exact hca
            noLast := h.noLast, extra := by rw [c3]; exact hca6
            cmdBus := c4, dataBus := c5, readDQS := c6, writeDQS := c7, wck := c8, clock := c9
            dbi := by rw [c12, ← hu.dbi hs]; exact Dbi.alike_self h.room
            pinsRead := c13.trans (hu.pinsRead hs).symm, pinsWrite := c14.trans (hu.pinsWrite hs).symm
            ranks := c15.trans (h.noRanks hs).symm
            metaData := by rw [c10]; exact hu.metaData.symm
            enabled := c11.trans hu.enabled.symm }

/-! ## Histories after which nothing unsaved has changed -/

/-- DBI has been off all the time. -/
structure DbiOff (i0 i : Interface std N) : Prop where
  enable : i.dbi.enable = false
  init : ∀ read, (i.dbi.last read).init = false
  dbi : i.dbi = i0.dbi
  pinsRead : i.pinsRead = i0.pinsRead
  pinsWrite : i.pinsWrite = i0.pinsWrite

theorem format_meta {f f' : Formatter} {shift : Option (Nat → Bool)} {data out : Option (List UInt8)} {n m : Nat} {inv : Option (List Bool)}
    (h : f.formatData shift data n inv = .ok (f', out, m)) : f'.metaData = f.metaData := by
  unfold Formatter.formatData at h
  split at h
  · cases h
  dsimp only at h
  split at h
  · have := ok_inj h; injection this with this _; rw [← this]
  · split at h
    · cases h
    · have := ok_inj h; injection this with this _; rw [← this]

theorem transfer_meta {c : ICmd} {read : Bool} {len : Nat} (h : i.transfer sp c read = .ok (i', len)) :
    i'.formatter.metaData = i.formatter.metaData ∧ i'.enabled = i.enabled := by
  unfold Interface.transfer at h
  split at h
  · split at h
    · have := ok_inj h; injection this with this _; rw [← this]; exact ⟨rfl, rfl⟩
    · obtain ⟨i1, h1, h2⟩ := bind_ok h
      obtain ⟨d, _, e⟩ := loadData_ok h1
      have := pure_ok h2; injection this with this _; rw [← this, e]; exact ⟨rfl, rfl⟩
  · obtain ⟨⟨i1, data⟩, h1, h⟩ := bind_ok h
    obtain ⟨d, pr, pw, e, _, _⟩ := invertData_ok h1
    dsimp only at h
    split at h
    · obtain ⟨⟨f, bytes, n⟩, hf, h⟩ := bind_ok h
      obtain ⟨i2, h3, h⟩ := bind_ok h
      obtain ⟨d, _, e2⟩ := loadData_ok h3
      have := pure_ok h; injection this with this _
      rw [← this, e2]
      exact ⟨(format_meta hf).trans (by rw [e]), by rw [e]⟩
    · obtain ⟨i2, h3, h⟩ := bind_ok h
      obtain ⟨d, _, e2⟩ := loadData_ok h3
      have := pure_ok h; injection this with this _
      rw [← this, e2, e]
      exact ⟨rfl, rfl⟩

theorem handleData_meta {c : ICmd} {read : Bool} (h : i.handleData sp c read = .ok i') :
    i'.formatter.metaData = i.formatter.metaData ∧ i'.enabled = i.enabled := by
  obtain ⟨i1, len, i2, i3, i4, h1, h2, h3, h4, h5⟩ := handleData_ok h
  obtain ⟨a, b⟩ := transfer_meta h1
  obtain ⟨_, _, e2⟩ := dqs_ok h2
  obtain ⟨_, e3⟩ := runWck_ok h3
  obtain ⟨_, _, eo⟩ := overrides_eq i3 len read
  rw [eo] at h4
  obtain ⟨_, _, _, _, _, _, e4⟩ := handleCommandBus_ok h4
  rcases prePostamble_ok h5 with ⟨_, e5⟩ | ⟨_, _, _, _, _, e5⟩
  · rw [e5, e4, e3, e2]; exact ⟨a, b⟩
  · rw [e5, e4, e3, e2]; exact ⟨a, b⟩

theorem step_meta {op : IfOp} (h : i.step sp op = .ok i') :
    i'.formatter.metaData = metaStep i.formatter.metaData op ∧
    i'.enabled = onStep i.enabled op := by
  cases op with
  | cmd c =>
    obtain ⟨i1, h1, e⟩ := ifCommand_ok h
    rw [e]
    revert h1
    show _ → i1.formatter.metaData = i.formatter.metaData ∧ i1.enabled = i.enabled
    cases ifAction sp.arch std c.type with
    | bus => intro h1; obtain ⟨_, _, _, _, _, _, e4⟩ := handleCommandBus_ok h1; rw [e4]; exact ⟨rfl, rfl⟩
    | data read => exact handleData_meta
    | finish => intro h1; obtain ⟨_, _, _, e4, _⟩ := endOfSimulation_ok h1; rw [e4]; exact ⟨rfl, rfl⟩
    | skip => intro h1; rw [← ok_inj h1]; exact ⟨rfl, rfl⟩
    | unsupported => intro h1; cases h1
    | invalid => intro h1; cases h1
  | dbi e => rw [← ok_inj h]; exact ⟨rfl, rfl⟩
  | metaData a b => rw [← ok_inj h]; exact ⟨rfl, rfl⟩
  | parity b =>
    simp only [Interface.step, Interface.setParityCheckMode] at h
    split at h
    · rw [← ok_inj h]; exact ⟨rfl, rfl⟩
    · cases h
  | enable t =>
    simp only [Interface.step, Interface.enable] at h
    split at h
    · rename_i he
      rw [← ok_inj h]; exact ⟨rfl, he⟩
    · split at h <;>
      · obtain ⟨w, _, h⟩ := bind_ok h
        obtain ⟨c, _, h⟩ := bind_ok h
        rw [← pure_ok h]; exact ⟨rfl, rfl⟩
  | disable t =>
    simp only [Interface.step, Interface.disable] at h
    split at h
    · rename_i he
      rw [← ok_inj h]; exact ⟨rfl, he⟩
    · split at h <;>
      · obtain ⟨w, _, h⟩ := bind_ok h
        obtain ⟨c, _, h⟩ := bind_ok h
        rw [← pure_ok h]; exact ⟨rfl, rfl⟩

theorem meta_run : ∀ {ops : List IfOp} {i i' : Interface std N}, i.run sp ops = .ok i' →
    i'.formatter.metaData = ops.foldl metaStep i.formatter.metaData ∧
    i'.enabled = onAfter i.enabled ops
  | [], _, _, h => by rw [← ok_inj h]; exact ⟨rfl, rfl⟩
  | op :: ops, i, i', h => by
    obtain ⟨j, h1, h2⟩ := Interface.run_cons h
    obtain ⟨a, b⟩ := step_meta h1
    obtain ⟨c, d⟩ := meta_run (ops := ops) h2
    rw [a] at c
    rw [b] at d
    exact ⟨c, d⟩

namespace DbiOff

theorem handleData {c : ICmd} {read : Bool} (h : DbiOff i0 i) (he : i.handleData sp c read = .ok i') : DbiOff i0 i' := by
  obtain ⟨i1, len, i2, i3, i4, h1, h2, h3, h4, h5⟩ := handleData_ok he
  have hk : i1.dbi = i.dbi ∧ i1.pinsRead = i.pinsRead ∧ i1.pinsWrite = i.pinsWrite := by
    unfold Interface.transfer at h1
    split at h1
    · split at h1
      · have := ok_inj h1; injection this with this _; rw [← this]; exact ⟨rfl, rfl, rfl⟩
      · obtain ⟨j, h6, h7⟩ := bind_ok h1
        obtain ⟨d, _, e⟩ := loadData_ok h6
        have := pure_ok h7; injection this with this _; rw [← this, e]; exact ⟨rfl, rfl, rfl⟩
    · rw [invert_off c read h.enable] at h1
      replace h1 : (if std = .lpddr6 then _ else _) = _ := h1
      split at h1
      · obtain ⟨⟨f, bytes, n⟩, _, h6⟩ := bind_ok h1
        obtain ⟨j, h7, h8⟩ := bind_ok h6
        obtain ⟨d, _, e⟩ := loadData_ok h7
        have := pure_ok h8; injection this with this _; rw [← this, e]; exact ⟨rfl, rfl, rfl⟩
      · obtain ⟨j, h7, h8⟩ := bind_ok h1
        obtain ⟨d, _, e⟩ := loadData_ok h7
        have := pure_ok h8; injection this with this _; rw [← this, e]; exact ⟨rfl, rfl, rfl⟩
  obtain ⟨_, _, e2⟩ := dqs_ok h2
  obtain ⟨_, e3⟩ := runWck_ok h3
  obtain ⟨_, _, eo⟩ := overrides_eq i3 len read
  rw [eo] at h4
  obtain ⟨_, _, _, _, _, _, e4⟩ := handleCommandBus_ok h4
  have h1' : DbiOff i0 i1 := ⟨by rw [hk.1]; exact h.enable, by rw [hk.1]; exact h.init, hk.1.trans h.dbi, hk.2.1.trans h.pinsRead, hk.2.2.trans h.pinsWrite⟩
  rcases prePostamble_ok h5 with ⟨_, e5⟩ | ⟨_, _, _, _, _, e5⟩ <;>
  · rw [e5, e4, e3, e2]; exact ⟨h1'.enable, h1'.init, h1'.dbi, h1'.pinsRead, h1'.pinsWrite⟩

theorem step {op : IfOp} (h : DbiOff i0 i) (hop : ∀ e, op = .dbi e → e = false) (he : i.step sp op = .ok i') : DbiOff i0 i' := by
  cases op with
  | cmd c =>
    obtain ⟨i1, h1, e⟩ := ifCommand_ok he
    rw [e]
    have : DbiOff i0 i1 := by
      revert h1
      cases ifAction sp.arch std c.type with
      | bus =>
        intro h1; obtain ⟨_, _, _, _, _, _, e4⟩ := handleCommandBus_ok h1; rw [e4]
        exact ⟨h.enable, h.init, h.dbi, h.pinsRead, h.pinsWrite⟩
      | data read => exact h.handleData
      | finish =>
        intro h1
        have hr : ∀ read, i.dbi.reset (sp.dbi std) c.t read = .ok (i.dbi, []) := by
          intro read
          have hl := h.init read
          unfold Dbi.reset
          dsimp only
          rw [short_off hl, if_neg (by simp), if_pos hl]
        have : i.endOfSimulation sp c.t = .ok i := by
          unfold Interface.endOfSimulation Dbi.resetBoth
          rw [hr true]
          show ((i.dbi.reset (sp.dbi std) c.t false >>= _) >>= _) = _
          rw [hr false]
          rfl
        rw [Interface.act, this] at h1
        rw [← ok_inj h1]; exact h
      | skip => intro h1; rw [← ok_inj h1]; exact h
      | unsupported => intro h1; cases h1
      | invalid => intro h1; cases h1
    exact ⟨this.enable, this.init, this.dbi, this.pinsRead, this.pinsWrite⟩
  | dbi e =>
    have := hop e rfl
    subst this
    have hd : { i.dbi with enable := false } = i.dbi := by rw [← h.enable]
    rw [← ok_inj he]
    unfold Interface.enableDBI
    rw [hd]
    exact h
  | metaData a b => rw [← ok_inj he]; exact ⟨h.enable, h.init, h.dbi, h.pinsRead, h.pinsWrite⟩
  | parity b =>
    simp only [Interface.step, Interface.setParityCheckMode] at he
    split at he
    · rw [← ok_inj he]; exact ⟨h.enable, h.init, h.dbi, h.pinsRead, h.pinsWrite⟩
    · cases he
  | enable t =>
    simp only [Interface.step, Interface.enable] at he
    split at he
    · rw [← ok_inj he]; exact h
    · split at he <;>
      · obtain ⟨w, _, he⟩ := bind_ok he
        obtain ⟨c, _, he⟩ := bind_ok he
        rw [← pure_ok he]; exact ⟨h.enable, h.init, h.dbi, h.pinsRead, h.pinsWrite⟩
  | disable t =>
    simp only [Interface.step, Interface.disable] at he
    split at he
    · rw [← ok_inj he]; exact h
    · split at he <;>
      · obtain ⟨w, _, he⟩ := bind_ok he
        obtain ⟨c, _, he⟩ := bind_ok he
        rw [← pure_ok he]; exact ⟨h.enable, h.init, h.dbi, h.pinsRead, h.pinsWrite⟩

theorem run : ∀ {ops : List IfOp} {i i' : Interface std N}, DbiOff i0 i → (∀ e, IfOp.dbi e ∈ ops → e = false) → i.run sp ops = .ok i' → DbiOff i0 i'
  | [], _, _, h, _, he => ok_inj he ▸ h
  | op :: ops, i, i', h, ho, he => by
    obtain ⟨j, h1, h2⟩ := Interface.run_cons he
    exact run (ops := ops) (h.step (fun e e' => ho e (by rw [e']; simp)) h1) (fun e hx => ho e (by simp [hx])) h2

theorem start (h : Interface.init std N sp = .ok i0) : DbiOff i0 i0 ∧ i0.formatter.metaData = (0, 0) ∧ i0.enabled = sp.enabled := by
  unfold Interface.init at h
  obtain ⟨cb, _, h⟩ := bind_ok h
  obtain ⟨db, _, h⟩ := bind_ok h
  obtain ⟨d, hd, h⟩ := bind_ok h
  split at h
  · cases h
  have e := pure_ok h
  have hd' : d = { enable := false } := by
    unfold Interface.initDbi at hd
    split at hd
    · exact (ok_inj hd).symm
    · unfold Dbi.init at hd
      split at hd
      · split at hd
        · exact (ok_inj hd).symm
        · cases hd
      · exact (ok_inj hd).symm
  subst hd'
  rw [← e]
  exact ⟨⟨rfl, fun r => by cases r <;> rfl, rfl, rfl, rfl⟩, rfl, rfl⟩

end DbiOff

/-! ## Sessions -/

theorem watch_alike : ∀ {us : List Use} {i j : Interface std N}, i.Alike j → defined sp i us → watch sp j us = watch sp i us
  | [], _, _, _, _ => rfl
  | .call op :: us, i, j, h, hd => by
    obtain ⟨h1, h2⟩ := h.step (sp := sp) op
    unfold defined at hd
    simp only [watch] at hd ⊢
    cases hi : i.step sp op with
    | ok a =>
      obtain ⟨b, hb, hab⟩ := h1 a hi
      rw [hi] at hd
      rw [hb]
      exact watch_alike hab hd
    | error e =>
      rw [hi] at hd
      rcases h2 e hi with ⟨m, hm⟩ | hj
      · exact absurd (by rw [hm]) (hd m)
      · rw [hj]
  | .query t :: us, i, j, h, hd => by
    unfold defined at hd
    simp only [watch] at hd ⊢
    rw [h.getWindowStats]
    cases hi : i.getWindowStats sp t {} with
    | error e => rfl
    | ok s =>
      rw [hi] at hd
      dsimp only at hd ⊢
      rw [watch_alike h hd]
      show ((s, j.last) :: _, _) = ((s, i.last) :: _, _)
      rw [h.last]

end DRAMPower
