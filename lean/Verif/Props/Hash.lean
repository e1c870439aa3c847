import Verif.Props.HashUnique

/-! # `unordered_map` and `unordered_set` (C89) -/

namespace Verif.Hash

variable {K V F : Type} {c : Cfg K V F}

/-- two tables beside each other hold two lists -/
structure Holds (c : Cfg K V F) (w : World V F) (r : List V × List V) : Prop where
  a : Rel c w.a w.m (w.b.nodes.map Node.id) r.1
  b : Rel c w.b w.m (w.a.nodes.map Node.id) r.2

/-- a step that changes only the first table and the memory -/
theorem Holds.first {w : World V F} {r : List V × List V} (h : Holds c w r) {t : Table V F} {m : Mem} {L : List V}
    (ht : Rel c t m (w.b.nodes.map Node.id) L) : Holds c { w with a := t, m := m } (L, r.2) :=
  ⟨ht, ⟨h.b.inv.other ht.inv, h.b.vals, h.b.one⟩⟩

theorem step_ok (hc : Lawful c) (o : Op K V F) {w : World V F} {r : List V × List V} (h : Holds c w r) :
    ∃ w' out, stepUnique c w o = some (w', out) ∧ out.Same (refUnique c r o).2 ∧ Holds c w' (refUnique c r o).1 := by
  cases o with
  | insert v =>
    obtain ⟨t, m, p, h1, h2⟩ := h.a.insert hc v
    refine ⟨{ w with a := t, m := m }, .flag (!hasKey c r.1 (c.key v)), ?_, rfl, h.first h2⟩
    show (insertUnique c w.a w.m v).bind _ = _
    rw [h1]; rfl
  | emplace v =>
    obtain ⟨t, m, p, h1, h2, -⟩ := h.a.emplace hc v
    refine ⟨{ w with a := t, m := m }, .flag (!hasKey c r.1 (c.key v)), ?_, rfl, h.first h2⟩
    show (emplaceUnique c w.a w.m v).bind _ = _
    rw [h1]; rfl
  | insertRange l =>
    obtain ⟨t, m, h1, h2⟩ := h.a.insertRange hc l
    refine ⟨{ w with a := t, m := m }, .none, ?_, trivial, h.first h2⟩
    show (insertUniqueRange c w.a w.m l).bind _ = _
    rw [h1]; rfl
  | put v =>
    obtain ⟨t, m, h1, h2⟩ := h.a.put hc v
    refine ⟨{ w with a := t, m := m }, .none, ?_, trivial, h.first h2⟩
    show (subscript c w.a w.m v).bind _ = _
    rw [h1]; rfl
  | erase k =>
    obtain ⟨t, m, h1, h2⟩ := h.a.erase hc k
    refine ⟨{ w with a := t, m := m }, .num (if hasKey c r.1 k then 1 else 0), ?_, rfl, h.first h2⟩
    show (eraseUnique c w.a w.m k).bind _ = _
    rw [h1]; rfl
  | eraseAt k =>
    obtain ⟨p, t, m, h0, h1, h2⟩ := h.a.eraseAt hc k
    refine ⟨{ w with a := t, m := m }, .none, ?_, trivial, h.first h2⟩
    show (find c w.a k).bind _ = _
    rw [h0]
    show (erasePos c w.a w.m (p.map Node.id)).bind _ = _
    rw [h1]; rfl
  | clear =>
    obtain ⟨t, m, h1, h2, h3, -⟩ := clear_ok h.a.inv
    refine ⟨{ w with a := t, m := m }, .none, ?_, trivial, h.first ⟨h2, ?_, List.Pairwise.nil⟩⟩
    · show (clear w.a w.m).bind _ = _
      rw [h1]; rfl
    · unfold Table.vals; rw [h3]; exact List.Perm.refl _
  | find k =>
    obtain ⟨p, h1, h2⟩ := h.a.find hc k
    refine ⟨w, .value (p.map Node.val), ?_, h2, h⟩
    show (find c w.a k).bind _ = _
    rw [h1]; rfl
  | «at» k =>
    obtain ⟨p, h1, h2⟩ := h.a.find hc k
    refine ⟨w, .value (p.map Node.val), ?_, h2, h⟩
    show (atKey c w.a k).bind _ = _
    have : atKey c w.a k = some (p.map Node.val) := by
      show (find c w.a k).bind _ = _
      rw [h1]; rfl
    rw [this]; rfl
  | count k =>
    refine ⟨w, .num (w.a.vals.countP (fun v => c.eq (c.key v) k)), ?_, ?_, h⟩
    · show (count c w.a k).bind _ = _
      rw [count_ok hc h.a.inv k]; rfl
    · show w.a.vals.countP _ = if hasKey c r.1 k = true then 1 else 0
      rw [h.a.vals.countP_eq, countP_one hc h.a.one]
  | size =>
    refine ⟨w, .num w.a.size, rfl, ?_, h⟩
    show w.a.size = r.1.length
    rw [h.a.inv.sz, ← h.a.vals.length_eq]
    unfold Table.vals
    rw [List.length_map]
  | elements =>
    refine ⟨w, .listing w.a.vals, ?_, h.a.vals, h⟩
    show (elements c w.a).bind _ = _
    rw [elements_ok h.a.inv]; rfl
  | rehash n =>
    obtain ⟨t, m, h1, h2⟩ := rehash_ok hc h.a.inv n
    refine ⟨{ w with a := t, m := m }, .none, ?_, trivial, h.first (h.a.same h2)⟩
    show (rehash c w.a w.m n).bind _ = _
    rw [h1]; rfl
  | reserve n =>
    obtain ⟨t, m, h1, h2⟩ := rehash_ok hc h.a.inv (c.wanted n w.a.mlf)
    refine ⟨{ w with a := t, m := m }, .none, ?_, trivial, h.first (h.a.same h2)⟩
    show (rehash c w.a w.m (c.wanted n w.a.mlf)).bind _ = _
    rw [h1]; rfl
  | maxLoad f =>
    refine ⟨{ w with a := { w.a with mlf := f } }, .none, rfl, trivial, ⟨⟨?_, h.a.vals, h.a.one⟩, h.b⟩⟩
    exact ⟨h.a.inv.len, h.a.inv.pos, h.a.inv.sz, h.a.inv.slot, h.a.inv.ids, h.a.inv.live, h.a.inv.fresh, h.a.inv.nd⟩
  | swap => exact ⟨_, _, rfl, trivial, ⟨h.b, h.a⟩⟩
  | copyOther =>
    obtain ⟨t, m, h1, h2, h3, -⟩ := assign_ok h.a.inv h.b.inv
    refine ⟨{ w with a := t, m := m }, .none, ?_, trivial, h.first ⟨h2, ?_, h.b.one⟩⟩
    · show (assign w.a w.m w.b).bind _ = _
      rw [h1]; rfl
    · rw [h3]; exact h.b.vals

theorem run_ok (hc : Lawful c) (ops : List (Op K V F)) {w : World V F} {r : List V × List V} (h : Holds c w r) :
    ∃ w' outs, runUnique c ops w = some (w', outs) ∧ List.Forall₂ Out.Same outs (runRef c ops r).2 ∧ Holds c w' (runRef c ops r).1 := by
  induction ops generalizing w r with
  | nil => exact ⟨w, [], rfl, List.Forall₂.nil, h⟩
  | cons o ops ih =>
    obtain ⟨w1, out, h1, h2, h3⟩ := step_ok hc o h
    obtain ⟨w2, outs, g1, g2, g3⟩ := ih h3
    refine ⟨w2, out :: outs, ?_, List.Forall₂.cons h2 g2, g3⟩
    show (stepUnique c w o).bind _ = _
    rw [h1]
    show (runUnique c ops w1).bind _ = _
    rw [g1]; rfl

/-- the memory before anything is allocated -/
def noMem : Mem := ⟨0, []⟩

theorem holds_start (n n' p p' : ℕ) (hp : 0 < p) (hp' : 0 < p') (_ : n = n') :
    Holds c (⟨⟨List.replicate p [], p, 0, c.one⟩, ⟨List.replicate p' [], p', 0, c.one⟩, noMem⟩ : World V F) ([], []) := by
  have e : ∀ q : ℕ, (⟨List.replicate q [], q, 0, c.one⟩ : Table V F).nodes = [] := by intro q; unfold Table.nodes; simp
  constructor
  · refine ⟨?_, ?_, List.Pairwise.nil⟩
    · rw [e]; exact inv_empty p hp _ List.nodup_nil (by simp) (by simp [noMem]) (by simp [noMem])
    · unfold Table.vals; rw [e]; exact List.Perm.refl _
  · refine ⟨?_, ?_, List.Pairwise.nil⟩
    · rw [e]; exact inv_empty p' hp' _ List.nodup_nil (by simp) (by simp [noMem]) (by simp [noMem])
    · unfold Table.vals; rw [e]; exact List.Perm.refl _

/-- C89: any history of operations on two `unordered_map`s (or `unordered_set`s), made with any bucket counts, any lawful hash and equality, and whatever the comparisons
with the load factor answer, runs without undefined behaviour and gives the answers of plain lists with one element for each key -/
theorem c89_history (hc : Lawful c) (n n' : ℕ) (ops : List (Op K V F)) :
    ∃ a b w outs, init c n = some a ∧ init c n' = some b ∧ runUnique c ops ⟨a, b, noMem⟩ = some (w, outs) ∧
      List.Forall₂ Out.Same outs (runRef c ops ([], [])).2 ∧
      elements c w.a = some w.a.vals ∧ w.a.vals.Perm (runRef c ops ([], [])).1.1 ∧ OneEach c w.a.vals := by
  obtain ⟨p, h1, h2, -⟩ := init_ok (c := c) n
  obtain ⟨p', h1', h2', -⟩ := init_ok (c := c) n'
  obtain ⟨w, outs, g1, g2, g3⟩ := run_ok hc ops (holds_start (c := c) n n p p' (by omega) (by omega) rfl)
  exact ⟨_, _, w, outs, h1, h1', g1, g2, elements_ok g3.a.inv, g3.a.vals, g3.a.oneVals hc⟩

/-- C89: a table made from a range or a list holds the first element for each key of it, and its `size()` is their number -/
theorem c89_of_range (hc : Lawful c) (n : ℕ) (l : List V) :
    ∃ t m, ofUnique c noMem n l = some (t, m) ∧ elements c t = some t.vals ∧ t.vals.Perm (l.foldl (addRef c) []) ∧ t.size = t.vals.length ∧
      OneEach c t.vals := by
  obtain ⟨p, h1, h2, -⟩ := init_ok (c := c) (max n l.length)
  have hs := (holds_start (c := c) 0 0 p p (by omega) (by omega) rfl).a
  obtain ⟨t, m, g1, g2⟩ := hs.insertEach hc l
  refine ⟨t, m, ?_, elements_ok g2.inv, g2.vals, ?_, g2.oneVals hc⟩
  · show (init c (max n l.length)).bind _ = _
    rw [h1]; exact g1
  · rw [g2.inv.sz]; unfold Table.vals; rw [List.length_map]

/-- C89: the number of buckets is one of the list, the least that is not below the number asked for (unless that is beyond the list) -/
theorem c89_bucket_count (n : ℕ) : ∃ t, init c n = some t ∧ t.bsize ∈ primeList ∧ (n ≤ t.bsize ∨ t.bsize = 18446744073709551557) ∧
    (∀ q ∈ primeList, n ≤ q → t.bsize ≤ q) ∧ t.size = 0 := by
  obtain ⟨p, h1, -, h3, h4, h5⟩ := nextPrime_pos n
  refine ⟨⟨List.replicate p [], p, 0, c.one⟩, ?_, h3, h4, h5, rfl⟩
  show (nextPrime n).bind _ = _
  rw [h1]
  show some (⟨List.replicate p [], (List.replicate p []).length, 0, c.one⟩ : Table V F) = _
  rw [List.length_replicate]

/-- C89, a defect: a table that was moved from cannot even be asked for a key (division by its bucket count, zero) -/
theorem c89_moved_from (t : Table V F) (zero : F) (k : K) :
    (moveFrom t zero).1 = t ∧ (moveFrom t zero).2.size = 0 ∧ (moveFrom t zero).2.buckets.flatten = [] ∧ find c (moveFrom t zero).2 k = none ∧ count c (moveFrom t zero).2 k = none ∧ ∀ m v, insertUniqueNoresize c (moveFrom t zero).2 m v = none :=
  ⟨rfl, rfl, rfl, rfl, rfl, fun _ _ => rfl⟩

/-- C89, a defect: rebuilding a table copies its nodes and never frees the old ones; nodes lost: all that it held -/
theorem c89_rebuild_leaks (hc : Lawful c) {t : Table V F} {m : Mem} {fr : List ℕ} (h : Inv c t m fr) (n p : ℕ) (hp : nextPrime n = some p) (hb : t.bsize < p)
    (hlive : m.live.length = t.size + fr.length) :
    ∃ t' m', rehash c t m n = some (t', m') ∧ t'.size = t.size ∧ m'.live.length = t'.size + fr.length + t.size := by
  obtain ⟨t', m', g1, g2, -, g4⟩ := replaceBucket_ok hc h p (by omega)
  have hsz : t'.size = t.size := by
    rw [g2.inv.sz, h.sz]
    have := g2.vals.length_eq
    unfold Table.vals at this
    rwa [List.length_map, List.length_map] at this
  refine ⟨t', m', ?_, hsz, by rw [g4, hlive, hsz]⟩
  show (nextPrime n).bind _ = _
  rw [hp]
  show (if p > t.bsize then _ else _) = _
  rw [if_pos hb]; exact g1

/-- the keys are numbers, hashed to themselves; elements are pairs; the table is rebuilt when it has more elements than buckets -/
def demoCfg : Cfg ℕ (ℕ × String) Unit where
  key := Prod.fst
  eq a b := a == b
  hash k := k
  over a b _ := decide (a > b)
  sparse _ _ _ _ := false
  wanted n _ := n
  one := ()
  fresh k := (k, "")
  upd o v := (o.1, v.2)

theorem demo_lawful : Lawful demoCfg := by
  constructor <;> intros <;> simp_all [demoCfg]

/-- keys 5 and 106 share a bucket of 101; after `rehash(150)` they do not -/
example : (runRef demoCfg [.insert (5, "a"), .insert (106, "b"), .emplace (5, "c"), .rehash 150, .put (5, "d"), .find 5, .erase 106, .size] ([], [])).1.1 = [(5, "d")] := by
  decide +kernel

example : ∃ a b w outs, init demoCfg 0 = some a ∧ init demoCfg 200 = some b ∧
    runUnique demoCfg [.insert (5, "a"), .insert (106, "b"), .emplace (5, "c"), .rehash 150, .put (5, "d"), .find 5, .erase 106, .size] ⟨a, b, noMem⟩ = some (w, outs) ∧
    w.a.vals.Perm [(5, "d")] := by
  obtain ⟨a, b, w, outs, h1, h2, h3, -, -, h4, -⟩ := c89_history demo_lawful 0 200
    [.insert (5, "a"), .insert (106, "b"), .emplace (5, "c"), .rehash 150, .put (5, "d"), .find 5, .erase 106, .size]
  exact ⟨a, b, w, outs, h1, h2, h3, h4⟩

/-- C89, a defect: `emplace` (and `insert` of a temporary) of a key that is there leaves the table as it was and a new node that no table reaches -/
theorem c89_emplace_leaks (hc : Lawful c) {t : Table V F} {m : Mem} {fr : List ℕ} {L : List V} (h : Rel c t m fr L) (v : V) (hk : hasKey c L (c.key v) = true)
    (ho : c.over (t.size + 1) t.bsize t.mlf = false) :
    ∃ p m', emplaceUnique c t m v = some (t, m', p, false) ∧ m'.live.length = m.live.length + 1 ∧ m.next ∈ m'.live ∧ m.next ∉ t.nodes.map Node.id := by
  obtain ⟨f, rest, hh, hb, hn, -, -, hr⟩ := h.inv.bucket hc (c.key v)
  obtain ⟨u, hu, hue⟩ := hasKey_iff.1 hk
  obtain ⟨x, hx, rfl⟩ := List.mem_map.1 (h.vals.mem_iff.2 hu)
  have hxf : x ∈ f := by
    rcases List.mem_append.1 (hn.mem_iff.1 hx) with hx | hx
    · exact hx
    · rw [hr x hx] at hue; cases hue
  rcases hl : look c (c.key v) f with _ | y
  · rw [look_none hl x hxf] at hue; cases hue
  refine ⟨y.id, (m.create v).2, ?_, rfl, List.mem_cons_self, fun hm => ?_⟩
  · have e1 : rehashIfNeed c t (m.create v).2 1 = some (t, (m.create v).2) := by
      unfold rehashIfNeed; rw [ho]; rfl
    have e2 : insertNodeUnique c t (m.create v).1 = some (t, y.id, false) := by
      show (hashIn c (c.key v) t.bsize).bind _ = _
      rw [hh]
      show (t.buckets[c.hash (c.key v) % t.bsize]?).bind _ = _
      rw [hb]
      rcases f with _ | ⟨z, r⟩
      · cases hxf
      · show (match look c (c.key v) (z :: r) with | some z => _ | none => _) = _
        rw [hl]; rfl
    show (rehashIfNeed c t (m.create v).2 1).bind _ = _
    rw [e1]
    show (insertNodeUnique c t (m.create v).1).bind _ = _
    rw [e2]; rfl
  · have := h.inv.fresh _ (h.inv.live _ (List.mem_append_left _ hm)); omega

/-- such a case: one element, its key again -/
example : ∃ t m p, emplaceUnique demoCfg (⟨List.replicate 101 [], 101, 0, ()⟩ : Table (ℕ × String) Unit) noMem (5, "a") = some (t, m, p, true) ∧
    Rel demoCfg t m [] [(5, "a")] ∧ demoCfg.over (t.size + 1) t.bsize t.mlf = false := by
  have hs := (holds_start (c := demoCfg) 0 0 101 101 (by norm_num) (by norm_num) rfl).a
  obtain ⟨t, m, p, h1, h2, -⟩ := hs.emplace demo_lawful (5, "a")
  have h3 : emplaceUnique demoCfg (⟨List.replicate 101 [], 101, 0, ()⟩ : Table (ℕ × String) Unit) noMem (5, "a") =
      some ⟨⟨(List.replicate 101 []).set 5 [⟨0, (5, "a")⟩], 101, 1, ()⟩, ⟨1, [0]⟩, 0, true⟩ := rfl
  refine ⟨t, m, p, h1, ?_, ?_⟩
  · have e : (⟨List.replicate 101 [], 101, 0, demoCfg.one⟩ : Table (ℕ × String) Unit).nodes.map Node.id = [] := rfl
    rw [e] at h2; exact h2
  · have := h1.symm.trans h3
    injection this with this
    have e : t = _ := congrArg Prod.fst this
    rw [e]; rfl

end Verif.Hash
