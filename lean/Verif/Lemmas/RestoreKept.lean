import Verif.Lemmas.RestoreStep
import Verif.Spec.Restore

/-!
# What calls never change, and the round trip of an interface
-/

namespace DRAMPower
open Ser
variable {std : Std} {N : Nat} {sp : IfSpec} {i i' i0 : Interface std N} {k : Codec}

open Spec

/-- Room for the flags, also after saving and restoring. -/
def LastBurst.Room (k : Codec) (l : LastBurst 8) : Prop := l.inversions.length ≤ l.capacity ∧ k.reserve l.inversions.length ≤ l.capacity

/-- Distinct keys. -/
def Overrides.Distinct (s : Overrides) : Prop := (s.map Prod.fst).Nodup

structure Kept (k : Codec) (sp : IfSpec) (i0 i : Interface std N) : Prop where
  cmdBus : i.cmdBus.Same i0.cmdBus
  dataBus : i.dataBus.Same i0.dataBus
  readRate : i.readDQS.dataRate = i0.readDQS.dataRate
  writeRate : i.writeDQS.dataRate = i0.writeDQS.dataRate
  wckRate : i.wck.dataRate = i0.wck.dataRate
  clockRate : i.clock.dataRate = i0.clock.dataRate
  ranks : i.ranks.length = i0.ranks.length
  lenRead : i.pinsRead.length = i0.pinsRead.length
  lenWrite : i.pinsWrite.length = i0.pinsWrite.length
  idleRead : ∀ p ∈ i.pinsRead, p.idleState = (sp.dbi std).idle
  idleWrite : ∀ p ∈ i.pinsWrite, p.idleState = (sp.dbi std).idle
  groups : i.ca6.extra.numberOfBankGroups = i0.ca6.extra.numberOfBankGroups
  noLast : i.ca.settings.NoLast
  distinct : i.ca.settings.Distinct
  noWrite : std = .lpddr5 ∨ std = .lpddr6 → i.writeDQS = i0.writeDQS
  noWck : ¬ (std = .lpddr5 ∨ std = .lpddr6) → i.wck = i0.wck
  no6 : std ≠ .lpddr6 → i.ca6.extra = i0.ca6.extra
  only6 : std = .lpddr6 → i.ca.settings = i0.ca.settings
  noRanks : std ≠ .ddr4 → i.ranks = i0.ranks
  room : ∀ read, (i.dbi.last read).Room k

/-! ## Overrides -/

theorem distinct_erase {s : Overrides} (h : s.Distinct) (d : Desc) : (s.erase d).Distinct :=
  h.sublist (List.filter_sublist.map _)

theorem distinct_set {s : Overrides} (h : s.Distinct) (d : Desc) (b : BitSpec) : (s.set d b).Distinct := by
  unfold Overrides.set Overrides.Distinct
  rw [List.map_cons, List.nodup_cons]
  refine ⟨fun hm => ?_, distinct_erase h d⟩
  obtain ⟨e, he, hd⟩ := List.mem_map.1 hm
  unfold Overrides.erase at he
  have := (List.mem_filter.1 he).2
  simp [hd] at this

theorem distinct_update : ∀ {l : List (Desc × BitSpec)} {s : Overrides}, s.Distinct → (s.update l).Distinct
  | [], _, h => h
  | e :: l, s, h => distinct_update (l := l) (distinct_set h e.1 e.2)

theorem distinct_handle {s : Overrides} (h : s.Distinct) (n : Nat) (r : Bool) (std : Std) : (handleOverrides s n r std).Distinct := by
  cases std <;> simp only [handleOverrides] <;> repeat' split
  all_goals first
    | exact distinct_update h
    | exact distinct_update (distinct_erase h _)
    | exact distinct_erase h _
    | exact h

theorem get_of_mem {s : Overrides} (h : s.Distinct) {e : Desc × BitSpec} (he : e ∈ s) : s.get e.1 = e.2 := by
  induction s with
  | nil => simp at he
  | cons x s ih =>
    rw [Overrides.get_cons]
    unfold Overrides.Distinct at h ih
    rw [List.map_cons, List.nodup_cons] at h
    rcases List.mem_cons.1 he with rfl | hm
    · rw [if_pos rfl]
    · have hx : ¬ x.1 = e.1 := fun hx => h.1 (List.mem_map.2 ⟨e, hm, hx.symm⟩)
      rw [if_neg hx]
      exact ih h.2 hm

theorem get_missing {s : Overrides} {d : Desc} (h : ∀ e ∈ s, e.1 ≠ d) : s.get d = .INVALID := by
  induction s with
  | nil => rfl
  | cons x s ih =>
    rw [Overrides.get_cons, if_neg (h x (by simp))]
    exact ih fun e he => h e (by simp [he])

theorem get_update_nil {l : Overrides} (h : l.Distinct) : ∀ (s : Overrides) (d : Desc),
    (s.update l).get d = if ∃ e ∈ l, e.1 = d then l.get d else s.get d := by
  induction l with
  | nil => intro s d; simp [Overrides.update]
  | cons x l ih =>
    intro s d
    unfold Overrides.Distinct at h ih
    rw [List.map_cons, List.nodup_cons] at h
    show ((s.set x.1 x.2).update l).get d = _
    rw [ih h.2, Overrides.get_set, Overrides.get_cons]
    by_cases hd : x.1 = d
    · subst hd
      rw [if_neg ?_, if_pos rfl, if_pos ⟨x, by simp, rfl⟩, if_pos rfl]
      rintro ⟨e, he, hx⟩
      exact h.1 (hx ▸ List.mem_map.2 ⟨e, he, rfl⟩)
    · have hd' : ¬ d = x.1 := fun he => hd he.symm
      have : (∃ e ∈ x :: l, e.1 = d) ↔ ∃ e ∈ l, e.1 = d := by simp [hd]
      simp only [this, hd, hd', if_false]

theorem noLast_of_mem {s : Overrides} (h : ∀ e ∈ s, e.2 ≠ .LAST_BIT) : s.NoLast := by
  induction s with
  | nil => intro d; simp [Overrides.get]
  | cons x s ih =>
    intro d
    rw [Overrides.get_cons]
    split
    · exact h x (by simp)
    · exact ih (fun e he => h e (by simp [he])) d

/-- Reading the entries in any order gives the same overrides. -/
theorem get_restored {s l : Overrides} (h : s.Distinct) (hp : l.Perm s) (d : Desc) : (Overrides.update [] l).get d = s.get d := by
  have hl : l.Distinct := (hp.map Prod.fst).nodup_iff.2 h
  rw [get_update_nil hl]
  split
  · rename_i hx
    obtain ⟨e, he, rfl⟩ := hx
    rw [get_of_mem hl he, get_of_mem h (hp.mem_iff.1 he)]
  · rename_i hx
    rw [get_missing (s := s) fun e he hd => hx ⟨e, hp.mem_iff.2 he, hd⟩]
    rfl

/-! ## Every call keeps it -/

theorem Pin.set_idle {P : Nat} {p p' : Pin P} {t dr : Nat} {x : PinState} (h : p.set t x dr = .ok p') : p'.idleState = p.idleState := by
  unfold Pin.set at h
  obtain ⟨s, _, h⟩ := bind_ok h
  dsimp only at h
  obtain ⟨d, _, h⟩ := bind_ok h
  rw [← pure_ok h]
  dsimp only
  split <;> split <;> rfl

theorem strobe_rate {c c' : Clock} {t s : Nat} (h : c.strobe t s = .ok c') : c'.dataRate = c.dataRate := by
  unfold Clock.strobe at h
  obtain ⟨a, h1, h2⟩ := bind_ok h
  have e1 : a.dataRate = c.dataRate := by
    unfold Clock.start at h1
    split at h1
    · cases h1
    · rw [← ok_inj h1]
  unfold Clock.stop at h2
  split at h2
  · cases h2
  · split at h2
    · rw [← ok_inj h2]; exact e1
    · cases h2

theorem start_rate {c c' : Clock} {t : Nat} (h1 : c.start t = .ok c') : c'.dataRate = c.dataRate := by
  unfold Clock.start at h1
  split at h1
  · cases h1
  · rw [← ok_inj h1]

theorem stop_rate {c c' : Clock} {t : Nat} (h2 : c.stop t = .ok c') : c'.dataRate = c.dataRate := by
  unfold Clock.stop at h2
  split at h2
  · cases h2
  · split at h2
    · rw [← ok_inj h2]
    · cases h2

theorem Bus.Same.load {M : Nat} {b b' b0 : Bus M} {t n : Nat} {x : List UInt8} (h : b.Same b0) (hl : b.load t x n = .ok b') : b'.Same b0 := by
  obtain ⟨h1, h2, _, h4, h5⟩ := bus_load_keeps hl
  exact ⟨h1.trans h.1, h2.trans h.2.1, h5.trans h.2.2.1, h4.trans h.2.2.2⟩

theorem room_reset {p : DbiParams 8} {d d' : Dbi 8} {t : Nat} {read : Bool} {ev : List DbiEvent} (h : ∀ r, (d.last r).Room k)
    (hr : d.reset p t read = .ok (d', ev)) : ∀ r, (d'.last r).Room k := by
  unfold Dbi.reset at hr
  dsimp only at hr
  split at hr
  · cases hr
  rename_i hs
  split at hr
  · injection hr with hr; injection hr with hr _; rw [← hr]; exact h
  rename_i hi
  split at hr
  · injection hr with hr; injection hr with hr _; rw [← hr]; exact h
  split at hr
  · injection hr with hr; injection hr with hr _; rw [← hr]; exact h
  split at hr
  · cases hr
  rename_i hlen
  have hcnt : p.resetCount (d.last read) ≤ (d.last read).nChunks := by
    unfold DbiParams.resetCount
    unfold DbiParams.short at hs
    split
    · exact Nat.le_refl _
    · rename_i n hn
      simp only [hn] at hs
      simp_all
  injection hr with hr
  injection hr with hr _
  intro r
  rw [← hr]
  by_cases e : r = read
  · subst e
    rw [Dbi.last_setLast]
    have hl : ((d.last r).inversions.take ((d.last r).nChunks - p.resetCount (d.last r)) ++
        (List.replicate (p.resetCount (d.last r)) false ++ (d.last r).inversions.drop (d.last r).nChunks)).length = (d.last r).inversions.length := by
      simp only [List.length_append, List.length_take, List.length_replicate, List.length_drop]
      omega
    unfold LastBurst.Room
    dsimp only
    rw [hl]
    exact h r
  · have e' : r = !read := by cases r <;> cases read <;> simp_all
    rw [e', Dbi.last_setLast_ne]
    exact h _

theorem room_update {p : DbiParams 8} (hs : 0 < p.sub) (hk : ∀ m n, k.reserve n ≤ max n (p.grow m n)) {d d' : Dbi 8} {t nBits : Nat}
    {data out : Option (List (BitVec 8))} {read : Bool} {ev : List DbiEvent} (h : ∀ r, (d.last r).Room k)
    (hu : d.update p t nBits data read = .ok (d', out, ev)) : ∀ r, (d'.last r).Room k := by
  cases data with
  | none =>
    unfold Dbi.update at hu
    injection hu with hu; injection hu with hu _
    rw [← hu]; exact h
  | some data =>
    cases out with
    | none =>
      unfold Dbi.update at hu
      dsimp only at hu
      split at hu
      · injection hu with hu; injection hu with hu _
        rw [← hu]; exact h
      · exfalso
        obtain ⟨⟨d1, ev1⟩, _, hu⟩ := bind_ok hu
        dsimp only at hu
        split at hu
        · cases hu
        split at hu
        · cases hu
        obtain ⟨b, _, hu⟩ := bind_ok hu
        split at hu
        · cases hu
        obtain ⟨s, _, hu⟩ := bind_ok hu
        have := pure_ok hu
        injection this with _ this
        injection this with this _
        cases this
    | some out =>
      obtain ⟨b⟩ := Dbi.update_ok hu
      have h1 := room_reset h b.reset
      intro r
      by_cases e : r = read
      · subst e
        rw [b.done_last]
        have hsl : (p.saveLast (b.d1.last r) b.d1.inverted t).Room k := by
          unfold DbiParams.saveLast
          split
          · exact h1 r
          · exact h1 r
        have hfl := (DbiParams.compute_flags hs b.comp).1
        dsimp only at hfl
        unfold LastBurst.Room LastBurst.done
        dsimp only
        rw [hfl]
        unfold LastBurst.Room at hsl
        unfold LastBurst.fit
        split
        · rename_i hc
          have := hk (p.saveLast (b.d1.last r) b.d1.inverted t).inversions.length (nBits / p.chunkSize)
          have hl : ((p.saveLast (b.d1.last r) b.d1.inverted t).inversions.take (nBits / p.chunkSize) ++
              List.replicate (nBits / p.chunkSize - (p.saveLast (b.d1.last r) b.d1.inverted t).inversions.length) false).length = nBits / p.chunkSize := by
            simp only [List.length_append, List.length_take, List.length_replicate]
            omega
          dsimp only
          rw [hl]
          omega
        · exact hsl
      · have e' : r = !read := by cases r <;> cases read <;> simp_all
        have e2 : d'.last r = (b.d1.setLast read (((p.saveLast (b.d1.last read) b.d1.inverted t).fit p (nBits / p.chunkSize)).done p t nBits b.s.flags)).last r :=
          (congrArg (fun x => Dbi.last x r) b.hd').trans rfl
        rw [e2, e', Dbi.last_setLast_ne]
        exact h1 _

namespace Kept

theorem encodeCommand {c : ICmd} {w : BitVec 64} {n : Nat} (h : Kept k sp i0 i) (he : i.encodeCommand sp c = .ok (i', w, n)) : Kept k sp i0 i' := by
  rcases encodeCommand_ok he with ⟨hs, _, x, hx, e⟩ | ⟨hs, _, x, hx, e⟩
  · subst e
    have hex : x.extra = i.ca6.extra := by
      unfold CaHandler6.command at hx
      split at hx
      · cases hx
      split at hx
      · cases hx
      obtain ⟨w', _, hx⟩ := bind_ok hx
      have := pure_ok hx
      injection this with this _
      rw [← this]
    exact { h with groups := by show x.extra.numberOfBankGroups = _; rw [hex]; exact h.groups, no6 := fun e => absurd hs e }
  · subst e
    have hex : x.settings = i.ca.settings := by
      unfold CaHandler.command at hx
      split at hx
      · cases hx
      split at hx
      · cases hx
      obtain ⟨w', _, hx⟩ := bind_ok hx
      have := pure_ok hx
      injection this with this _
      rw [← this]
    exact { h with noLast := by show x.settings.NoLast; rw [hex]; exact h.noLast
                   distinct := by show x.settings.Distinct; rw [hex]; exact h.distinct, only6 := fun e => absurd e hs }

theorem handleCommandBus {c : ICmd} (h : Kept k sp i0 i) (he : i.handleCommandBus sp c = .ok i') : Kept k sp i0 i' := by
  unfold Interface.handleCommandBus at he
  obtain ⟨⟨i1, w, n⟩, h1, he⟩ := bind_ok he
  obtain ⟨b, h3, h4⟩ := bind_ok he
  have h2 := h.encodeCommand h1
  rw [← pure_ok h4]
  refine { h2 with cmdBus := ?_ }
  unfold Bus.loadWord at h3
  dsimp only at h3
  split at h3
  · cases h3
  · exact h2.cmdBus.load h3

theorem loadData {read : Bool} {t n : Nat} {data : Option (List UInt8)} (h : Kept k sp i0 i) (he : i.loadData read t n data = .ok i') :
    Kept k sp i0 i' := by
  obtain ⟨d, h1, e⟩ := loadData_ok he
  subst e
  refine { h with dataBus := ?_ }
  unfold Interface.loadFunc at h1
  split at h1
  · unfold DataBus.loadRead at h1
    split at h1
    · split at h1
      · rw [← ok_inj h1]; exact h.dataBus
      · split at h1
        · rw [← ok_inj h1]; exact h.dataBus
        · obtain ⟨b, h2, h3⟩ := bind_ok h1
          rw [← pure_ok h3]
          exact ⟨h.dataBus.1.load h2, h.dataBus.2⟩
    · obtain ⟨b, h2, h3⟩ := bind_ok h1
      rw [← pure_ok h3]
      exact h.dataBus
  · unfold DataBus.loadWrite at h1
    split at h1
    · split at h1
      · rw [← ok_inj h1]; exact h.dataBus
      · split at h1
        · rw [← ok_inj h1]; exact h.dataBus
        · obtain ⟨b, h2, h3⟩ := bind_ok h1
          rw [← pure_ok h3]
          exact ⟨h.dataBus.1, h.dataBus.2.load h2⟩
    · obtain ⟨b, h2, h3⟩ := bind_ok h1
      rw [← pure_ok h3]
      exact h.dataBus

theorem pinChange {e : DbiEvent} (h : Kept k sp i0 i) (he : i.pinChange e = .ok i') : Kept k sp i0 i' := by
  unfold Interface.pinChange at he
  split at he
  · cases he
  · rename_i p hp
    obtain ⟨p', h1, h2⟩ := bind_ok he
    have hid := Pin.set_idle h1
    split at h2
    · rename_i hr
      rw [hr] at hp
      rw [← pure_ok h2]
      refine { h with lenRead := by simpa using h.lenRead, idleRead := fun q hq => ?_ }
      rcases List.mem_or_eq_of_mem_set hq with hq | hq
      · exact h.idleRead q hq
      · rw [hq, hid]; exact h.idleRead p (List.mem_of_getElem? hp)
    · rename_i hr
      rw [if_neg hr] at hp
      rw [← pure_ok h2]
      refine { h with lenWrite := by simpa using h.lenWrite, idleWrite := fun q hq => ?_ }
      rcases List.mem_or_eq_of_mem_set hq with hq | hq
      · exact h.idleWrite q hq
      · rw [hq, hid]; exact h.idleWrite p (List.mem_of_getElem? hp)

theorem pinChanges : ∀ {es : List DbiEvent} {i i' : Interface std N}, Kept k sp i0 i → es.foldlM Interface.pinChange i = .ok i' → Kept k sp i0 i'
  | [], _, _, h, he => pure_ok he ▸ h
  | e :: es, i, i', h, he => by
    rw [List.foldlM_cons] at he
    obtain ⟨i1, h1, h2⟩ := bind_ok he
    exact pinChanges (es := es) (h.pinChange h1) h2

theorem invertData (hk : Faithful k sp) {c : ICmd} {read : Bool} {data : Option (List UInt8)} (h : Kept k sp i0 i)
    (he : i.invertData sp c read = .ok (i', data)) : Kept k sp i0 i' := by
  unfold Interface.invertData at he
  split at he
  · have := ok_inj he
    injection this with this _
    rw [← this]; exact h
  · obtain ⟨⟨d, out, ev⟩, h1, he⟩ := bind_ok he
    obtain ⟨i1, h2, he⟩ := bind_ok he
    have := pure_ok he
    injection this with this _
    rw [← this]
    have h' : Kept k sp i0 { i with dbi := d } := { h with room := room_update (Interface.Alike.dbi_sub std sp) hk.atMost h.room h1 }
    exact h'.pinChanges h2

theorem transfer (hk : Faithful k sp) {c : ICmd} {read : Bool} {len : Nat} (h : Kept k sp i0 i)
    (he : i.transfer sp c read = .ok (i', len)) : Kept k sp i0 i' := by
  unfold Interface.transfer at he
  split at he
  · split at he
    · have := ok_inj he
      injection this with this _
      rw [← this]; exact h
    · obtain ⟨i1, h1, he⟩ := bind_ok he
      have := pure_ok he
      injection this with this _
      rw [← this]; exact h.loadData h1
  · obtain ⟨⟨i1, data⟩, h1, he⟩ := bind_ok he
    have h2 := h.invertData hk h1
    dsimp only at he
    split at he
    · obtain ⟨⟨f, bytes, n⟩, _, he⟩ := bind_ok he
      obtain ⟨i2, h3, he⟩ := bind_ok he
      have := pure_ok he
      injection this with this _
      rw [← this]
      have h' : Kept k sp i0 { i1 with formatter := f } := { h2 with }
      exact h'.loadData h3
    · obtain ⟨i2, h3, he⟩ := bind_ok he
      have := pure_ok he
      injection this with this _
      rw [← this]; exact h2.loadData h3

theorem dqs {t s : Nat} {read : Bool} (h : Kept k sp i0 i) (he : i.dqs t s read = .ok i') : Kept k sp i0 i' := by
  unfold Interface.dqs at he
  split at he
  · obtain ⟨c, h1, h2⟩ := bind_ok he
    rw [← pure_ok h2]
    exact { h with readRate := (strobe_rate h1).trans h.readRate }
  · split at he
    · rw [← ok_inj he]; exact h
    · rename_i hm
      obtain ⟨c, h1, h2⟩ := bind_ok he
      rw [← pure_ok h2]
      exact { h with writeRate := (strobe_rate h1).trans h.writeRate, noWrite := fun e => absurd e hm }

theorem runWck {t s : Nat} (h : Kept k sp i0 i) (he : i.runWck sp t s = .ok i') : Kept k sp i0 i' := by
  unfold Interface.runWck at he
  split at he
  · rename_i hm
    obtain ⟨c, h1, h2⟩ := bind_ok he
    rw [← pure_ok h2]
    exact { h with wckRate := (strobe_rate h1).trans h.wckRate, noWck := fun e => absurd hm.1 e }
  · rw [← ok_inj he]; exact h

theorem overrides (h : Kept k sp i0 i) (len : Nat) (read : Bool) : Kept k sp i0 (i.overrides len read) := by
  unfold Interface.overrides
  split
  · rename_i hs
    exact { h with groups := h.groups, no6 := fun e => absurd hs e }
  · rename_i hs
    exact { h with noLast := noLast_handle h.noLast len read std, distinct := distinct_handle h.distinct len read std
                   only6 := fun e => absurd e hs }

theorem prePostamble {c : ICmd} {len : Nat} {read : Bool} (h : Kept k sp i0 i) (he : i.prePostamble sp c len read = .ok i') : Kept k sp i0 i' := by
  rcases prePostamble_ok he with ⟨_, e⟩ | ⟨hs, r, r', _, _, e⟩
  · rw [e]; exact h
  · rw [e]
    exact { h with ranks := by simpa using h.ranks, noRanks := fun e => absurd hs e }

theorem handleData (hk : Faithful k sp) {c : ICmd} {read : Bool} (h : Kept k sp i0 i) (he : i.handleData sp c read = .ok i') : Kept k sp i0 i' := by
  obtain ⟨i1, len, i2, i3, i4, h1, h2, h3, h4, h5⟩ := handleData_ok he
  exact (((((h.transfer hk h1).dqs h2).runWck h3).overrides len read).handleCommandBus h4).prePostamble h5

theorem endOfSimulation {t : Nat} (h : Kept k sp i0 i) (he : i.endOfSimulation sp t = .ok i') : Kept k sp i0 i' := by
  unfold Interface.endOfSimulation at he
  obtain ⟨⟨d, ev⟩, h1, h2⟩ := bind_ok he
  unfold Dbi.resetBoth at h1
  obtain ⟨⟨d1, ev1⟩, h3, h1⟩ := bind_ok h1
  obtain ⟨⟨d2, ev2⟩, h4, h1⟩ := bind_ok h1
  have := pure_ok h1
  injection this with this _
  have h' : Kept k sp i0 { i with dbi := d } := { h with room := by rw [← this]; exact room_reset (room_reset h.room h3) h4 }
  exact h'.pinChanges h2

theorem step (hk : Faithful k sp) {op : IfOp} (ho : offered std op) (h : Kept k sp i0 i) (he : i.step sp op = .ok i') : Kept k sp i0 i' := by
  cases op with
  | cmd c =>
    obtain ⟨i1, h1, e⟩ := ifCommand_ok he
    rw [e]
    have : Kept k sp i0 i1 := by
      revert h1
      cases ifAction sp.arch std c.type with
      | bus => exact h.handleCommandBus
      | data read => exact h.handleData hk
      | finish => exact h.endOfSimulation
      | skip => intro h1; exact ok_inj h1 ▸ h
      | unsupported => intro h1; cases h1
      | invalid => intro h1; cases h1
    exact { this with }
  | dbi e => rw [← ok_inj he]; exact { h with room := h.room }
  | metaData a b => rw [← ok_inj he]; exact { h with }
  | parity b =>
    simp only [Interface.step, Interface.setParityCheckMode] at he
    split at he
    · rw [← ok_inj he]; exact { h with groups := h.groups, no6 := fun e => absurd ho e }
    · cases he
  | enable t =>
    have hl : std = .lpddr6 := ho
    simp only [Interface.step, Interface.enable] at he
    split at he
    · rw [← ok_inj he]; exact h
    · split at he
      · obtain ⟨w, h1, he⟩ := bind_ok he
        obtain ⟨c, h2, he⟩ := bind_ok he
        rw [← pure_ok he]
        exact { h with wckRate := (start_rate h1).trans h.wckRate, clockRate := (start_rate h2).trans h.clockRate
                       noWck := fun e => absurd (.inr hl) e }
      · obtain ⟨w, h1, he⟩ := bind_ok he
        obtain ⟨c, h2, he⟩ := bind_ok he
        rw [← pure_ok he]
        have := pure_ok h1
        exact { h with wckRate := by rw [← this]; exact h.wckRate, clockRate := (start_rate h2).trans h.clockRate
                       noWck := fun e => absurd (.inr hl) e }
  | disable t =>
    have hl : std = .lpddr6 := ho
    simp only [Interface.step, Interface.disable] at he
    split at he
    · rw [← ok_inj he]; exact h
    · split at he
      · obtain ⟨w, h1, he⟩ := bind_ok he
        obtain ⟨c, h2, he⟩ := bind_ok he
        rw [← pure_ok he]
        exact { h with wckRate := (stop_rate h1).trans h.wckRate, clockRate := (stop_rate h2).trans h.clockRate
                       noWck := fun e => absurd (.inr hl) e }
      · obtain ⟨w, h1, he⟩ := bind_ok he
        obtain ⟨c, h2, he⟩ := bind_ok he
        rw [← pure_ok he]
        have := pure_ok h1
        exact { h with wckRate := by rw [← this]; exact h.wckRate, clockRate := (stop_rate h2).trans h.clockRate
                       noWck := fun e => absurd (.inr hl) e }

theorem run (hk : Faithful k sp) : ∀ {ops : List IfOp} {i i' : Interface std N}, (∀ op ∈ ops, offered std op) → Kept k sp i0 i →
    i.run sp ops = .ok i' → Kept k sp i0 i'
  | [], _, _, _, h, he => ok_inj he ▸ h
  | op :: ops, i, i', ho, h, he => by
    obtain ⟨j, h1, h2⟩ := Interface.run_cons he
    exact run hk (ops := ops) (fun x hx => ho x (by simp [hx])) (h.step hk (ho op (by simp)) h1) h2

theorem init (hk : Faithful k sp) (h : Interface.init std N sp = .ok i0) : Kept k sp i0 i0 := by
  unfold Interface.init at h
  obtain ⟨cb, _, h⟩ := bind_ok h
  obtain ⟨db, _, h⟩ := bind_ok h
  obtain ⟨d, hd, h⟩ := bind_ok h
  split at h
  · cases h
  have e := pure_ok h
  have hpins : ∀ p ∈ sp.pins std, p.idleState = (sp.dbi std).idle := by
    intro p hp
    unfold IfSpec.pins at hp
    split at hp
    · rw [List.eq_of_mem_replicate hp]; rfl
    · simp at hp
  have hroom : ∀ r, (d.last r).Room k := by
    have : ∀ e, d = { enable := e } → ∀ r, (d.last r).Room k := by
      intro e he r
      rw [he]
      cases r <;> exact ⟨Nat.le_refl _, Nat.le_of_eq hk.zero⟩
    unfold Interface.initDbi at hd
    split at hd
    · exact this _ (ok_inj hd).symm
    · unfold Dbi.init at hd
      split at hd
      · split at hd
        · exact this _ (ok_inj hd).symm
        · cases hd
      · exact this _ (ok_inj hd).symm
  rw [← e]
  exact {
    cmdBus := ⟨rfl, rfl, rfl, rfl⟩, dataBus := ⟨⟨rfl, rfl, rfl, rfl⟩, rfl, rfl, rfl, rfl⟩, readRate := rfl, writeRate := rfl, wckRate := rfl
    clockRate := rfl, ranks := rfl, lenRead := rfl, lenWrite := rfl, idleRead := hpins, idleWrite := hpins, groups := rfl
    noLast := by
      show (caInit std).settings.NoLast
      cases std <;> exact noLast_of_mem (by decide)
    distinct := by
      show ((caInit std).settings.map Prod.fst).Nodup
      cases std <;> decide
    noWrite := fun _ => rfl, noWck := fun _ => rfl, no6 := fun _ => rfl, only6 := fun _ => rfl, noRanks := fun _ => rfl, room := hroom }

end Kept

end DRAMPower
