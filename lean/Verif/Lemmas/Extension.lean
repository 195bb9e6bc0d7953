import Verif.Spec.Extension
import Verif.Lemmas.Serialize

/-! # Extension managers -/

namespace DRAMPower
open Spec Ser

theorem lookup_mem {l : List (Nat × Nat)} {t i : Nat} (h : l.lookup t = some i) : (t, i) ∈ l := by
  induction l with
  | nil => simp at h
  | cons x l ih =>
    obtain ⟨a, b⟩ := x
    rw [List.lookup_cons] at h
    split at h
    · rename_i hx
      rw [beq_iff_eq] at hx
      cases h; subst hx; exact List.mem_cons_self
    · exact List.mem_cons_of_mem _ (ih h)

theorem lookup_none {l : List (Nat × Nat)} {t : Nat} (h : l.lookup t = none) (i : Nat) : (t, i) ∉ l := by
  induction l with
  | nil => simp
  | cons x l ih =>
    obtain ⟨a, b⟩ := x
    rw [List.lookup_cons] at h
    split at h
    · cases h
    · rename_i hx
      intro hm
      rcases List.mem_cons.1 hm with hm | hm
      · cases hm; simp at hx
      · exact ih h hm

theorem foldl_modify {α : Type} (f : α → α) (L : List Nat) (hL : L.Nodup) (l : List α) (j : Nat) :
    (L.foldl (fun o i => o.modify i f) l)[j]? = if j ∈ L then l[j]?.map f else l[j]? := by
  induction L generalizing l with
  | nil => simp
  | cons i L ih =>
    rw [List.nodup_cons] at hL
    rw [List.foldl_cons, ih hL.2]
    by_cases hij : j = i
    · subst hij
      rw [if_neg hL.1, if_pos List.mem_cons_self, List.getElem?_modify_eq]
      rfl
    · rw [List.getElem?_modify_ne _ _ (Ne.symm hij)]
      by_cases hj : j ∈ L
      · rw [if_pos hj, if_pos (List.mem_cons_of_mem _ hj)]
      · rw [if_neg hj, if_neg (fun h => (List.mem_cons.1 h).elim hij hj)]

theorem foldl_modify_length {α : Type} (f : α → α) (L : List Nat) (l : List α) :
    (L.foldl (fun o i => o.modify i f) l).length = l.length := by
  induction L generalizing l with
  | nil => rfl
  | cons i L ih => rw [List.foldl_cons, ih, List.length_modify]

namespace ExtManager

/-- The hooks of an object. -/
def hooksAt (objs : List ExtObj) (i : Nat) : Nat := (objs[i]?.map (·.hooks)).getD 0

/-- The cache of one hook. -/
def cacheOf (objs : List ExtObj) (p : Nat) : List Nat := (List.range objs.length).filter fun i => (hooksAt objs i).testBit p

/-- Object `i` is the last one of its type. -/
def IsLast (objs : List ExtObj) (t i : Nat) : Prop :=
  ∃ o, objs[i]? = some o ∧ o.type = t ∧ ∀ j o', i < j → objs[j]? = some o' → o'.type ≠ t

/-- What the manager knows after a history. -/
structure Inv (D : Nat) (m : ExtManager) (ops : List ExtOp) : Prop where
  cache : m.cache = (List.range D).map (cacheOf m.objs)
  ser : m.ser = List.range m.objs.length
  exts : ∀ t i, (t, i) ∈ m.exts ↔ IsLast m.objs t i
  cur : ∀ t k s, extension D ops t = some (k, s) ↔ ∃ i, IsLast m.objs t i ∧ m.objs[i]? = some ⟨t, k, s⟩
  reg : m.objs.map (fun o => (o.type, o.hooks)) = registered ops

theorem IsLast.unique {objs : List ExtObj} {t i j : Nat} (h1 : IsLast objs t i) (h2 : IsLast objs t j) : i = j := by
  obtain ⟨o1, a1, b1, c1⟩ := h1
  obtain ⟨o2, a2, b2, c2⟩ := h2
  rcases Nat.lt_trichotomy i j with h | h | h
  · exact absurd b2 (c1 j o2 h a2)
  · exact h
  · exact absurd b1 (c2 i o1 h a1)

theorem find_iff {D : Nat} {m : ExtManager} {ops : List ExtOp} (h : Inv D m ops) (t i : Nat) : m.find t = some i ↔ IsLast m.objs t i := by
  constructor
  · exact fun hf => (h.exts t i).1 (lookup_mem hf)
  · intro hl
    cases hf : m.find t with
    | none => exact absurd ((h.exts t i).2 hl) (lookup_none hf i)
    | some j => rw [hl.unique ((h.exts t j).1 (lookup_mem hf))]

theorem get_eq {D : Nat} {m : ExtManager} {ops : List ExtOp} (h : Inv D m ops) (t : Nat) :
    m.get t = (extension D ops t).map fun x => ⟨t, x.1, x.2⟩ := by
  unfold get
  cases hf : m.find t with
  | none =>
    cases he : extension D ops t with
    | none => rfl
    | some x =>
      obtain ⟨i, hl, -⟩ := (h.cur t x.1 x.2).1 he
      rw [(find_iff h t i).2 hl] at hf
      cases hf
  | some i =>
    have hl := (find_iff h t i).1 hf
    obtain ⟨o, ho, ht, hlast⟩ := hl
    obtain ⟨ty, k, s⟩ := o
    cases ht
    rw [(h.cur ty k s).2 ⟨i, ⟨⟨ty, k, s⟩, ho, rfl, hlast⟩, ho⟩]
    exact ho

theorem has_eq {D : Nat} {m : ExtManager} {ops : List ExtOp} (h : Inv D m ops) (t : Nat) : m.has t = (extension D ops t).isSome := by
  have hg := get_eq h t
  unfold has
  unfold get at hg
  cases hf : m.find t with
  | none =>
    rw [hf] at hg
    simp only at hg
    cases he : extension D ops t with
    | none => rfl
    | some x => rw [he] at hg; cases hg
  | some i =>
    rw [hf] at hg
    obtain ⟨o, ho, -⟩ := (find_iff h t i).1 hf
    simp only [ho] at hg
    cases he : extension D ops t with
    | none => rw [he] at hg; cases hg
    | some x => rfl

theorem inv_init (D : Nat) : Inv D (init D) [] := by
  refine ⟨?_, rfl, fun t i => ?_, fun t k s => ?_, rfl⟩
  · refine List.ext_getElem (by simp [init]) fun i h1 h2 => ?_
    simp [init, cacheOf]
  · refine ⟨fun h => absurd h (by simp [init]), ?_⟩
    rintro ⟨o, ho, -⟩
    simp [init] at ho
  · refine ⟨fun h => absurd h (by simp [extension]), ?_⟩
    rintro ⟨i, -, ho⟩
    simp [init] at ho

/-! ## Registration -/

theorem cacheLoop_eq (cache : List (List Nat)) (hooks obj : Nat) (n : Nat) (hn : n ≤ 32) :
    ∃ c, (List.range n).foldlM (fun c i =>
      if 32 ≤ i then (.error (.ub "1 << i") : Except Err (List (List Nat))) else .ok (if hooks.testBit i then c.modify i (· ++ [obj]) else c)) cache = .ok c ∧
    c.length = cache.length ∧ ∀ j : Nat, c[j]? = if j < n ∧ hooks.testBit j = true then cache[j]?.map (· ++ [obj]) else cache[j]? := by
  induction n with
  | zero => exact ⟨cache, rfl, rfl, fun j => by simp⟩
  | succ n ih =>
    obtain ⟨c, h1, h2, h3⟩ := ih (by omega)
    rw [List.range_succ, List.foldlM_append, h1]
    simp only [List.foldlM_cons, List.foldlM_nil, bind, Except.bind, pure, Except.pure, if_neg (by omega : ¬ 32 ≤ n)]
    refine ⟨_, rfl, by split <;> simp [h2], fun j => ?_⟩
    by_cases hb : hooks.testBit n = true
    · rw [if_pos hb]
      by_cases hj : j = n
      · subst hj
        rw [List.getElem?_modify_eq, h3, if_neg (by omega), if_pos ⟨by omega, hb⟩]
        rfl
      · rw [List.getElem?_modify_ne _ _ (Ne.symm hj), h3]
        by_cases hlt : j < n
        · simp [hlt, (by omega : j < n + 1)]
        · rw [if_neg (fun h => hlt h.1), if_neg (fun h => by omega)]
    · rw [if_neg hb, h3]
      by_cases hj : j = n
      · subst hj; simp [hb]
      · by_cases hlt : j < n
        · simp [hlt, (by omega : j < n + 1)]
        · rw [if_neg (fun h => hlt h.1), if_neg (fun h => by omega)]

theorem hooksAt_append_old (objs : List ExtObj) (o : ExtObj) {i : Nat} (h : i < objs.length) : hooksAt (objs ++ [o]) i = hooksAt objs i := by
  unfold hooksAt; rw [List.getElem?_append_left h]

theorem hooksAt_append_new (objs : List ExtObj) (o : ExtObj) : hooksAt (objs ++ [o]) objs.length = o.hooks := by
  unfold hooksAt; simp

theorem cacheOf_append (objs : List ExtObj) (o : ExtObj) (p : Nat) :
    cacheOf (objs ++ [o]) p = cacheOf objs p ++ (if o.hooks.testBit p then [objs.length] else []) := by
  unfold cacheOf
  rw [List.length_append, List.length_singleton, List.range_succ, List.filter_append]
  congr 1
  · refine List.filter_congr fun i hi => ?_
    rw [hooksAt_append_old _ _ (List.mem_range.1 hi)]
  · rw [List.filter_cons, hooksAt_append_new, List.filter_nil]

theorem isLast_append (objs : List ExtObj) (o : ExtObj) (t i : Nat) :
    IsLast (objs ++ [o]) t i ↔ (i = objs.length ∧ o.type = t) ∨ (o.type ≠ t ∧ IsLast objs t i) := by
  constructor
  · rintro ⟨x, hx, ht, hl⟩
    rcases Nat.lt_or_ge i objs.length with hi | hi
    · right
      refine ⟨hl objs.length o hi (by simp), x, ?_, ht, fun j o' hj ho' => hl j o' hj ?_⟩
      · rwa [List.getElem?_append_left hi] at hx
      · obtain ⟨hj', -⟩ := List.getElem?_eq_some_iff.1 ho'
        rw [List.getElem?_append_left hj']; exact ho'
    · left
      obtain ⟨hi', hx'⟩ := List.getElem?_eq_some_iff.1 hx
      simp only [List.length_append, List.length_singleton] at hi'
      have : i = objs.length := by omega
      subst this
      simp at hx
      exact ⟨rfl, by rw [hx]; exact ht⟩
  · rintro (⟨rfl, ht⟩ | ⟨hne, x, hx, ht, hl⟩)
    · refine ⟨o, by simp, ht, fun j o' hj ho' => ?_⟩
      obtain ⟨hj', -⟩ := List.getElem?_eq_some_iff.1 ho'
      simp at hj'; omega
    · obtain ⟨hi, -⟩ := List.getElem?_eq_some_iff.1 hx
      refine ⟨x, by rw [List.getElem?_append_left hi]; exact hx, ht, fun j o' hj ho' => ?_⟩
      rcases Nat.lt_or_ge j objs.length with hlt | hge
      · rw [List.getElem?_append_left hlt] at ho'
        exact hl j o' hj ho'
      · obtain ⟨hj', -⟩ := List.getElem?_eq_some_iff.1 ho'
        simp at hj'
        have : j = objs.length := by omega
        subst this
        simp at ho'
        rw [← ho']; exact hne

theorem inv_register {D : Nat} (hD : D ≤ 32) {m : ExtManager} {ops : List ExtOp} (h : Inv D m ops) (t k : Nat) (s : ExtState) :
    ∃ m', m.register t k s = .ok m' ∧ Inv D m' (ops ++ [.register t k s]) := by
  have hlen : m.cache.length = D := by rw [h.cache]; simp
  obtain ⟨c, hc, hcl, hcj⟩ := cacheLoop_eq m.cache k m.objs.length D hD
  have hok : m.register t k s = .ok (ExtManager.mk (m.objs ++ [ExtObj.mk t k s])
      ((t, m.objs.length) :: m.exts.filter fun e => e.1 != t) (m.ser ++ [m.objs.length]) c) := by
    unfold register cacheLoop
    simp only [hlen, hc, bind, Except.bind, pure, Except.pure]
  refine ⟨_, hok, ⟨?cache, ?ser, ?exts, ?cur, ?reg⟩⟩
  case cache =>
    refine List.ext_getElem? fun j => ?_
    simp only
    rw [hcj]
    by_cases hj : j < D
    · rw [h.cache]
      simp only [List.getElem?_map, List.getElem?_range hj, Option.map_some, cacheOf_append]
      by_cases hb : k.testBit j = true
      · simp [hj, hb]
      · simp [hb]
    · rw [if_neg (by omega), List.getElem?_eq_none (by omega), List.getElem?_eq_none (by simp; omega)]
  case ser =>
    simp only [List.length_append, List.length_singleton, List.range_succ, h.ser]
  case exts =>
    intro t' i
    rw [isLast_append, List.mem_cons, List.mem_filter, h.exts]
    simp only [Prod.mk.injEq, bne_iff_ne, ne_eq]
    constructor
    · rintro (⟨rfl, rfl⟩ | ⟨h1, h2⟩)
      · exact Or.inl ⟨rfl, rfl⟩
      · exact Or.inr ⟨fun h => h2 h.symm, h1⟩
    · rintro (⟨rfl, rfl⟩ | ⟨h1, h2⟩)
      · exact Or.inl ⟨rfl, rfl⟩
      · exact Or.inr ⟨h2, fun h => h1 h.symm⟩
  case cur =>
    intro t' k' s'
    unfold extension
    rw [List.foldl_append]
    simp only [List.foldl_cons, List.foldl_nil, current]
    by_cases ht : t = t'
    · subst ht
      rw [if_pos rfl]
      constructor
      · intro he
        cases he
        exact ⟨m.objs.length, (isLast_append _ _ _ _).2 (Or.inl ⟨rfl, rfl⟩), by simp⟩
      · rintro ⟨i, hl, ho⟩
        rcases (isLast_append _ _ _ _).1 hl with ⟨rfl, -⟩ | ⟨h1, -⟩
        · simp at ho
          rw [ho.1, ho.2]
        · exact absurd rfl h1
    · rw [if_neg ht]
      refine (h.cur t' k' s').trans ?_
      constructor
      · rintro ⟨i, hl, ho⟩
        refine ⟨i, (isLast_append _ _ _ _).2 (Or.inr ⟨ht, hl⟩), ?_⟩
        obtain ⟨hi, -⟩ := List.getElem?_eq_some_iff.1 ho
        rw [List.getElem?_append_left hi]; exact ho
      · rintro ⟨i, hl, ho⟩
        rcases (isLast_append _ _ _ _).1 hl with ⟨-, h1⟩ | ⟨-, hl'⟩
        · exact absurd h1 ht
        · obtain ⟨x, hx, -⟩ := id hl'
          obtain ⟨hi, -⟩ := List.getElem?_eq_some_iff.1 hx
          rw [List.getElem?_append_left hi] at ho
          exact ⟨i, hl', ho⟩
  case reg =>
    rw [List.map_append, h.reg]
    unfold registered
    rw [List.filterMap_append]
    rfl

/-! ## Changes of states -/

/-- The same objects with other states. -/
theorem inv_states {D : Nat} {m : ExtManager} {ops : List ExtOp} (h : Inv D m ops) (objs : List ExtObj) (op : ExtOp)
    (g : Nat → Nat → ExtState → ExtState)
    (hobjs : ∀ i : Nat, objs[i]? = m.objs[i]?.map fun o => ExtObj.mk o.type o.hooks (g i o.hooks o.state))
    (hreg : registered (ops ++ [op]) = registered ops)
    (hcur : ∀ t i, IsLast m.objs t i → ∀ x, current D t (some x) op = some (x.1, g i x.1 x.2))
    (hnone : ∀ t, current D t none op = none) :
    Inv D { m with objs := objs } (ops ++ [op]) := by
  have hlen : objs.length = m.objs.length := by
    rcases Nat.lt_trichotomy objs.length m.objs.length with hlt | he | hlt
    · have := hobjs objs.length
      rw [List.getElem?_eq_none (Nat.le_refl _), List.getElem?_eq_getElem hlt] at this
      cases this
    · exact he
    · have := hobjs m.objs.length
      rw [List.getElem?_eq_none (Nat.le_refl _), List.getElem?_eq_getElem hlt] at this
      cases this
  have hh : ∀ i, hooksAt objs i = hooksAt m.objs i := by
    intro i; unfold hooksAt; rw [hobjs]; cases m.objs[i]? <;> rfl
  have hl : ∀ t i, IsLast objs t i ↔ IsLast m.objs t i := by
    intro t i
    constructor
    · rintro ⟨o, ho, ht, hl⟩
      rw [hobjs] at ho
      obtain ⟨o1, ho1, rfl⟩ := Option.map_eq_some_iff.1 ho
      refine ⟨o1, ho1, ht, fun j o' hj ho' => ?_⟩
      exact hl j ⟨o'.type, o'.hooks, g j o'.hooks o'.state⟩ hj (by rw [hobjs, ho']; rfl)
    · rintro ⟨o, ho, ht, hl⟩
      refine ⟨⟨o.type, o.hooks, g i o.hooks o.state⟩, by rw [hobjs, ho]; rfl, ht, fun j o' hj ho' => ?_⟩
      rw [hobjs] at ho'
      obtain ⟨o1, ho1, rfl⟩ := Option.map_eq_some_iff.1 ho'
      exact hl j o1 hj ho1
  refine ⟨?_, ?_, fun t i => ?_, fun t k s => ?_, ?_⟩
  · show m.cache = _
    rw [h.cache]
    refine List.map_congr_left fun p _ => ?_
    unfold cacheOf
    rw [hlen]
    exact List.filter_congr fun i _ => by rw [hh]
  · show m.ser = _
    rw [h.ser, hlen]
  · rw [hl]; exact h.exts t i
  · unfold extension
    rw [List.foldl_append]
    simp only [List.foldl_cons, List.foldl_nil]
    show current D t (extension D ops t) op = some (k, s) ↔ ∃ i, IsLast objs t i ∧ objs[i]? = some ⟨t, k, s⟩
    constructor
    · intro hc
      cases he : extension D ops t with
      | none => rw [he, hnone] at hc; cases hc
      | some x =>
        obtain ⟨i, hi, ho⟩ := (h.cur t x.1 x.2).1 he
        rw [he, hcur t i hi] at hc
        cases hc
        exact ⟨i, (hl t i).2 hi, by rw [hobjs, ho]; rfl⟩
    · rintro ⟨i, hi, ho⟩
      rw [hobjs] at ho
      obtain ⟨⟨ty, k', s'⟩, ho1, heq⟩ := Option.map_eq_some_iff.1 ho
      cases heq
      have hi' := (hl ty i).1 hi
      rw [(h.cur ty k' s').2 ⟨i, hi', ho1⟩, hcur ty i hi']
  · have : objs.map (fun o => (o.type, o.hooks)) = m.objs.map fun o => (o.type, o.hooks) := by
      refine List.ext_getElem? fun i => ?_
      rw [List.getElem?_map, List.getElem?_map, hobjs]
      cases m.objs[i]? <;> rfl
    show objs.map (fun o => (o.type, o.hooks)) = _
    rw [this, h.reg, hreg]

theorem inv_use {D : Nat} {m : ExtManager} {ops : List ExtOp} (h : Inv D m ops) (t : Nat) (f : ExtState → ExtState) :
    Inv D (m.withExtension t f) (ops ++ [.use t f]) := by
  have hreg : registered (ops ++ [.use t f]) = registered ops := by unfold registered; simp
  unfold withExtension
  cases hf : m.find t with
  | none =>
    have hno : ∀ i, ¬ IsLast m.objs t i := fun i hl => by rw [(find_iff h t i).2 hl] at hf; cases hf
    refine inv_states h m.objs _ (fun _ _ s => s) (fun i => by cases m.objs[i]? <;> rfl) hreg (fun t' i hl x => ?_) fun t' => ?_
    · simp only [current]
      rw [if_neg]
      rintro rfl
      exact hno i hl
    · simp only [current]; split <;> rfl
  | some j =>
    have hj := (find_iff h t j).1 hf
    refine inv_states h _ _ (fun i _ s => if i = j then f s else s) (fun i => ?_) hreg (fun t' i hl x => ?_) fun t' => ?_
    · by_cases hij : i = j
      · subst hij
        simp only [List.getElem?_modify_eq, if_pos]
        cases m.objs[i]? <;> rfl
      · simp only [List.getElem?_modify_ne _ _ (Ne.symm hij), if_neg hij]
        cases m.objs[i]? <;> rfl
    · simp only [current]
      by_cases ht : t = t'
      · subst ht
        rw [if_pos rfl, hl.unique hj]; simp
      · rw [if_neg ht, if_neg]
        rintro rfl
        obtain ⟨o, ho, h1, -⟩ := hl
        obtain ⟨o', ho', h2, -⟩ := hj
        rw [ho] at ho'
        cases ho'
        exact ht (h2 ▸ h1)
    · simp only [current]; split <;> rfl

/-! ## Hooks -/

theorem countZeros_lt {D h p : Nat} (hp : countZeros D h = p) (hlt : p < D) : h.testBit p = true ∧ ∀ j, j < p → h.testBit j = false := by
  unfold countZeros at hp
  cases hf : (List.range D).find? fun i => h.testBit i with
  | none => rw [hf] at hp; simp at hp; omega
  | some q =>
    rw [hf] at hp
    simp at hp
    subst hp
    rw [List.find?_range_eq_some] at hf
    refine ⟨hf.1, fun j hj => ?_⟩
    have := hf.2.2 j hj
    simpa using this

theorem countZeros_eq {D h i : Nat} (hi : i < D) (hb : h.testBit i = true) (hmin : ∀ j, j < i → h.testBit j = false) : countZeros D h = i := by
  unfold countZeros
  have : (List.range D).find? (fun i => h.testBit i) = some i := by
    rw [List.find?_range_eq_some]
    exact ⟨hb, List.mem_range.2 hi, fun j hj => by rw [hmin j hj]; rfl⟩
  rw [this]; rfl

theorem invoked_eq {D : Nat} {m : ExtManager} {ops : List ExtOp} (h : Inv D m ops) (hk : Nat) :
    m.invoked hk = (List.range m.objs.length).filter fun i => decide (hookMatches D (hooksAt m.objs i) hk) := by
  unfold invoked
  have hlen : m.cache.length = D := by rw [h.cache]; simp
  rw [hlen]
  by_cases hp : countZeros D hk < D
  · obtain ⟨h1, h2⟩ := countZeros_lt rfl hp
    rw [h.cache, List.getElem?_map, List.getElem?_range hp]
    show cacheOf m.objs _ = _
    unfold cacheOf
    refine List.filter_congr fun i _ => ?_
    rw [Bool.eq_iff_iff, decide_eq_true_iff]
    constructor
    · exact fun hb => ⟨_, hp, hb, h1, h2⟩
    · rintro ⟨q, hq, hb, hq1, hq2⟩
      rw [countZeros_eq hq hq1 hq2]; exact hb
  · rw [List.getElem?_eq_none (by omega)]
    symm
    show _ = []
    rw [List.filter_eq_nil_iff]
    intro i _ hs
    obtain ⟨q, hq, hb, hq1, hq2⟩ := of_decide_eq_true hs
    rw [countZeros_eq hq hq1 hq2] at hp
    omega

theorem inv_hook {D : Nat} {m : ExtManager} {ops : List ExtOp} (h : Inv D m ops) (hk : Nat) (f : ExtState → ExtState) :
    Inv D (m.callHook hk f) (ops ++ [.hook hk f]) := by
  unfold callHook
  refine inv_states h _ _ (fun _ k s => if hookMatches D k hk then f s else s) (fun i => ?_) (by unfold registered; simp)
    (fun t i _ x => rfl) fun t => rfl
  rw [invoked_eq h, foldl_modify _ _ (List.nodup_range.filter _)]
  cases ho : m.objs[i]? with
  | none => simp
  | some o =>
    obtain ⟨hi, -⟩ := List.getElem?_eq_some_iff.1 ho
    have hh : hooksAt m.objs i = o.hooks := by unfold hooksAt; rw [ho]; rfl
    simp only [List.mem_filter, List.mem_range, hi, true_and, hh, decide_eq_true_iff]
    by_cases hs : hookMatches D o.hooks hk
    · simp [hs, change]
    · simp [hs]

/-! ## Saving and restoring -/

/-- The bytes of a state. -/
def bytesOf (s : ExtState) : Bytes := s.serialize []

theorem serialize_state (s : ExtState) (out : Bytes) : s.serialize out = out ++ bytesOf s := by
  cases s <;> simp [bytesOf, ExtState.serialize, putBool]

theorem deserialize_state {s s' : ExtState} (h : sameKind s s') (rest : Bytes) : s'.deserialize (bytesOf s ++ rest) = .ok (s, rest) := by
  cases s with
  | dbi e =>
    cases s' with
    | dbi e' => cases e <;> rfl
    | metaData _ _ => exact h.elim
    | custom _ => exact h.elim
  | metaData m1 m2 =>
    cases s' with
    | metaData a b =>
      have h1 : ∀ (x : BitVec 16) (r : Bytes), getBytes 2 (le 2 x.toNat ++ r) = some (le 2 x.toNat, r) :=
        fun x r => getBytes_append (le_length 2 _)
      have h2 : ∀ x : BitVec 16, BitVec.ofNat 16 (fromLe (le 2 x.toNat)) = x := by
        intro x
        refine BitVec.eq_of_toNat_eq ?_
        have := x.isLt
        simp [fromLe, le, List.range_succ]
        omega
      unfold bytesOf ExtState.serialize ExtState.deserialize
      simp only [List.nil_append, List.append_assoc, h1, ExtState.read, bind, Except.bind, pure, Except.pure, h2]
    | dbi _ => exact h.elim
    | custom _ => exact h.elim
  | custom b =>
    cases s' with
    | custom b' =>
      have hl : b.length = b'.length := h
      simp only [bytesOf, ExtState.serialize, ExtState.deserialize, List.nil_append, getBytes_append hl, ExtState.read, bind, Except.bind,
        pure, Except.pure]
    | dbi _ => exact h.elim
    | metaData _ _ => exact h.elim

theorem alive_of_unique {D : Nat} {m : ExtManager} {ops : List ExtOp} (h : Inv D m ops) (hu : Unique ops) {i : Nat} (hi : i < m.objs.length) :
    IsLast m.objs m.objs[i].type i ∧ m.alive i = true := by
  have hl : IsLast m.objs m.objs[i].type i := by
    refine ⟨m.objs[i], List.getElem?_eq_getElem hi, rfl, fun j o' hj ho' ht => ?_⟩
    unfold Unique at hu
    rw [← h.reg, List.map_map] at hu
    obtain ⟨hj', ho'⟩ := List.getElem?_eq_some_iff.1 ho'
    have := (List.nodup_iff_pairwise_ne.1 hu)
    rw [List.pairwise_iff_getElem] at this
    have := this i j (by simpa using hi) (by simpa using hj') hj
    simp only [List.getElem_map, Function.comp] at this
    rw [ho', ht] at this
    exact this rfl
  refine ⟨hl, ?_⟩
  unfold alive
  rw [Bool.or_eq_true]
  left
  rw [List.any_eq_true]
  exact ⟨_, (h.exts _ _).2 hl, by simp⟩

theorem serialize_ok {D : Nat} {m : ExtManager} {ops : List ExtOp} (h : Inv D m ops) (hu : Unique ops) (out : Bytes) :
    m.serialize out = .ok (out ++ m.objs.flatMap fun o => bytesOf o.state) := by
  have key : ∀ n, n ≤ m.objs.length → (List.range n).foldlM m.saveStep out =
      (.ok (out ++ (m.objs.take n).flatMap fun o => bytesOf o.state) : Except Err Bytes) := by
    intro n hn
    induction n with
    | zero => simp [pure, Except.pure]
    | succ n ih =>
      rw [List.range_succ, List.foldlM_append, ih (by omega)]
      simp only [List.foldlM_cons, List.foldlM_nil, bind, Except.bind, pure, Except.pure, saveStep, (alive_of_unique h hu (by omega : n < m.objs.length)).2,
        List.getElem?_eq_getElem (by omega : n < m.objs.length), serialize_state]
      rw [List.take_succ_eq_append_getElem (by omega), List.flatMap_append]
      simp
  unfold serialize
  rw [h.ser, key _ (Nat.le_refl _), List.take_length]

theorem deserialize_ok {D : Nat} {m : ExtManager} {ops : List ExtOp} (h : Inv D m ops) (hu : Unique ops) (objs : List ExtObj)
    (htypes : objs.map (fun o => (o.type, o.hooks)) = m.objs.map fun o => (o.type, o.hooks))
    (hkind : ∀ i (h1 : i < objs.length) (h2 : i < m.objs.length), sameKind objs[i].state m.objs[i].state) (rest : Bytes) :
    m.deserialize ((objs.flatMap fun o => bytesOf o.state) ++ rest) = .ok ({ m with objs := objs }, rest) := by
  have hlen : objs.length = m.objs.length := by have := congrArg List.length htypes; simpa using this
  have key : ∀ n, n ≤ m.objs.length → (List.range n).foldlM m.restoreStep (m.objs, (objs.flatMap fun o => bytesOf o.state) ++ rest) =
      (.ok (objs.take n ++ m.objs.drop n, ((objs.drop n).flatMap fun o => bytesOf o.state) ++ rest) : Except Err (List ExtObj × Bytes)) := by
    intro n hn
    induction n with
    | zero => simp [pure, Except.pure]
    | succ n ih =>
      have hn' : n < m.objs.length := by omega
      have hn2 : n < objs.length := by omega
      rw [List.range_succ, List.foldlM_append, ih (by omega)]
      have ho : (objs.take n ++ m.objs.drop n)[n]? = some m.objs[n] := by
        rw [List.getElem?_append_right (by simp; omega), List.getElem?_drop, List.length_take, Nat.min_eq_left (by omega),
          Nat.sub_self, Nat.add_zero, List.getElem?_eq_getElem hn']
      have hd : objs.drop n = objs[n] :: objs.drop (n + 1) := List.drop_eq_getElem_cons hn2
      simp only [List.foldlM_cons, List.foldlM_nil, bind, Except.bind, pure, Except.pure, restoreStep, (alive_of_unique h hu hn').2, ho, hd,
        List.flatMap_cons, List.append_assoc, deserialize_state (hkind n hn2 hn')]
      have ht := List.getElem_of_eq htypes (i := n) (by simpa using hn2)
      simp only [List.getElem_map, Prod.mk.injEq] at ht
      have hset : (objs.take n ++ m.objs.drop n).set n { m.objs[n] with state := objs[n].state } = objs.take (n + 1) ++ m.objs.drop (n + 1) := by
        have he : ExtObj.mk m.objs[n].type m.objs[n].hooks objs[n].state = objs[n] := by rw [← ht.1, ← ht.2]
        show (objs.take n ++ m.objs.drop n).set n (ExtObj.mk m.objs[n].type m.objs[n].hooks objs[n].state) = _
        rw [he, List.drop_eq_getElem_cons hn', List.set_append_right _ _ (by simp; omega)]
        rw [List.take_succ_eq_append_getElem hn2, List.length_take, Nat.min_eq_left (by omega), Nat.sub_self, List.set_cons_zero,
          List.append_assoc]
        rfl
      rw [hset]
  unfold deserialize
  rw [h.ser, key _ (Nat.le_refl _)]
  simp [← hlen, bind, Except.bind, pure, Except.pure]

end ExtManager

end DRAMPower
