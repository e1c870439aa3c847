import Verif.HashMultiSpec
import Verif.Props.HashErase

/-! # `unordered_multimap` and `unordered_multiset` (C90) -/

namespace Verif.Hash

variable {K V F : Type} {c : Cfg K V F}

/-- the table holds exactly the elements of `L`; equal keys stand together -/
structure MRel (c : Cfg K V F) (t : Table V F) (m : Mem) (fr : List ℕ) (L : List V) : Prop where
  inv : Inv c t m fr
  vals : t.vals.Perm L
  grp : Grp c t

theorem MRel.same {t t' : Table V F} {m m' : Mem} {fr fr' : List ℕ} {L : List V} (h : MRel c t m fr L) (hs : Same c t t' m' fr') : MRel c t' m' fr' L :=
  ⟨hs.inv, hs.vals.trans h.vals, hs.grp h.grp⟩

theorem MRel.insertNoresize (hc : Lawful c) {t : Table V F} {m : Mem} {fr : List ℕ} {L : List V} (h : MRel c t m fr L) (v : V) :
    ∃ t' m' p, insertMultiNoresize c t m v = some (t', m', p) ∧ MRel c t' m' fr (v :: L) := by
  obtain ⟨bs, h1, h2, h3, h4⟩ := place_ok hc h.inv v
  refine ⟨{ t with buckets := bs, size := t.size + 1 }, (m.create v).2, m.next, ?_, ⟨h2, ?_, h4 h.grp⟩⟩
  · show (place c t.buckets t.bsize (m.create v).1).bind _ = _
    rw [h1]; rfl
  · exact (h3.map Node.val).trans (List.Perm.cons _ h.vals)

theorem MRel.insertEach (hc : Lawful c) (l : List V) {t : Table V F} {m : Mem} {fr : List ℕ} {L : List V} (h : MRel c t m fr L) :
    ∃ t' m', insertMultiEach c l t m = some (t', m') ∧ MRel c t' m' fr (l ++ L) := by
  induction l generalizing t m L with
  | nil => exact ⟨t, m, rfl, h⟩
  | cons v r ih =>
    obtain ⟨t1, m1, p, h1, h2⟩ := h.insertNoresize hc v
    obtain ⟨t2, m2, g1, g2⟩ := ih h2
    refine ⟨t2, m2, ?_, ⟨g2.inv, g2.vals.trans List.perm_middle, g2.grp⟩⟩
    show (insertMultiNoresize c t m v).bind _ = _
    rw [h1]; exact g1

theorem MRel.insert (hc : Lawful c) {t : Table V F} {m : Mem} {fr : List ℕ} {L : List V} (h : MRel c t m fr L) (v : V) :
    ∃ t' m' p, insertMulti c t m v = some (t', m', p) ∧ MRel c t' m' fr (v :: L) := by
  obtain ⟨t1, m1, h1, h2⟩ := rehashIfNeed_ok hc h.inv 1
  obtain ⟨t2, m2, p, g1, g2⟩ := (h.same h2).insertNoresize hc v
  refine ⟨t2, m2, p, ?_, g2⟩
  show (rehashIfNeed c t m 1).bind _ = _
  rw [h1]; exact g1

theorem MRel.insertRange (hc : Lawful c) (l : List V) {t : Table V F} {m : Mem} {fr : List ℕ} {L : List V} (h : MRel c t m fr L) :
    ∃ t' m', insertMultiRange c t m l = some (t', m') ∧ MRel c t' m' fr (l ++ L) := by
  obtain ⟨t1, m1, h1, h2⟩ := rehashIfNeed_ok hc h.inv l.length
  obtain ⟨t2, m2, g1, g2⟩ := (h.same h2).insertEach hc l
  refine ⟨t2, m2, ?_, g2⟩
  show (rehashIfNeed c t m l.length).bind _ = _
  rw [h1]; exact g1

theorem MRel.emplace (hc : Lawful c) {t : Table V F} {m : Mem} {fr : List ℕ} {L : List V} (h : MRel c t m fr L) (v : V) :
    ∃ t' m' p, emplaceMulti c t m v = some (t', m', p) ∧ MRel c t' m' fr (v :: L) := by
  obtain ⟨t1, m1, h1, h2⟩ := rehashIfNeed_ok hc (h.inv.create v) 1
  have hvals : t1.vals.Perm L := h2.vals.trans h.vals
  have hgrp := h2.grp h.grp
  obtain ⟨f, rest, hh, hb, hn, hset, hf, hr⟩ := h2.inv.bucket hc (c.key v)
  have key : ∀ f', f'.Perm ((m.create v).1 :: f) → Grouped c f' →
      insertNodeMulti c t1 (m.create v).1 = some ({ t1 with buckets := t1.buckets.set (c.hash (c.key v) % t1.bsize) f', size := t1.size + 1 }, m.next) →
      ∃ t' m' p, emplaceMulti c t m v = some (t', m', p) ∧ MRel c t' m' fr (v :: L) := by
    intro f' hp hg hrun
    obtain ⟨h3, h4⟩ := Inv.addNode (x := (m.create v).1) h2.inv hb hn (hset f') hf rfl hp
    refine ⟨_, m1, m.next, ?_, ⟨h3, (h4.map Node.val).trans (List.Perm.cons _ hvals), grp_set hgrp hg⟩⟩
    show (rehashIfNeed c t (m.create v).2 1).bind _ = _
    rw [h1]
    show (insertNodeMulti c t1 (m.create v).1).bind _ = _
    rw [hrun]; rfl
  have hfg := hgrp f (List.mem_of_getElem? hb)
  rcases f with _ | ⟨y, r⟩
  · refine key [(m.create v).1] (List.Perm.refl _) ⟨by simp, trivial⟩ ?_
    show (hashIn c (c.key v) t1.bsize).bind _ = _
    rw [hh]
    show (t1.buckets[c.hash (c.key v) % t1.bsize]?).bind _ = _
    rw [hb]; rfl
  · rcases hbe : behind c (m.create v).1 (y :: r) with _ | f'
    · refine key ((m.create v).1 :: y :: r) (List.Perm.refl _) (grouped_head hc hfg (behind_none hbe)) ?_
      show (hashIn c (c.key v) t1.bsize).bind _ = _
      rw [hh]
      show (t1.buckets[c.hash (c.key v) % t1.bsize]?).bind _ = _
      rw [hb]
      show (match behind c (m.create v).1 (y :: r) with | some f' => _ | none => _) = _
      rw [hbe]; rfl
    · refine key f' (behind_perm hbe) (grouped_behind hc hfg hbe) ?_
      show (hashIn c (c.key v) t1.bsize).bind _ = _
      rw [hh]
      show (t1.buckets[c.hash (c.key v) % t1.bsize]?).bind _ = _
      rw [hb]
      show (match behind c (m.create v).1 (y :: r) with | some f' => _ | none => _) = _
      rw [hbe]; rfl

theorem fromEqual_none {k : K} {f : List (Node V)} (h : fromEqual c k f = none) : ∀ z ∈ f, c.eq (c.key z.val) k = false := by
  induction f with
  | nil => simp
  | cons x r ih =>
    unfold fromEqual at h
    by_cases hx : c.eq (c.key x.val) k = true
    · rw [if_pos hx] at h; cases h
    · rw [if_neg hx] at h
      intro z hz
      rcases List.mem_cons.1 hz with rfl | hz
      · simpa using hx
      · exact ih h z hz

theorem fromEqual_some {k : K} {f r : List (Node V)} {y : Node V} (h : fromEqual c k f = some (y, r)) :
    ∃ a, f = a ++ y :: r ∧ c.eq (c.key y.val) k = true ∧ ∀ z ∈ a, c.eq (c.key z.val) k = false := by
  induction f with
  | nil => cases h
  | cons x s ih =>
    unfold fromEqual at h
    by_cases hx : c.eq (c.key x.val) k = true
    · rw [if_pos hx] at h; cases h
      exact ⟨[], rfl, hx, by simp⟩
    · rw [if_neg hx] at h
      obtain ⟨a, h1, h2, h3⟩ := ih h
      refine ⟨x :: a, by rw [h1]; rfl, h2, ?_⟩
      intro z hz
      rcases List.mem_cons.1 hz with rfl | hz
      · simpa using hx
      · exact h3 z hz

theorem pastEqual_eq (k : K) (r : List (Node V)) : pastEqual c k r = (r.dropWhile (fun z => c.eq (c.key z.val) k)).head? := by
  induction r with
  | nil => rfl
  | cons x r ih =>
    unfold pastEqual
    rw [List.dropWhile_cons]
    by_cases hx : c.eq (c.key x.val) k = true
    · rw [if_pos hx, if_pos hx, ih]
    · rw [if_neg hx, if_neg hx]; rfl

theorem grouped_tail {a r : List (Node V)} {y : Node V} (h : Grouped c (a ++ y :: r)) :
    ∀ z ∈ r.dropWhile (fun z => c.eq (c.key y.val) (c.key z.val)), c.eq (c.key y.val) (c.key z.val) = false := by
  induction a with
  | nil => exact h.1
  | cons w a ih => exact ih h.2

/-- `equal_range` bounds exactly the elements with that key -/
theorem mem_takeWhile_of {α : Type} {p : α → Bool} {l : List α} {x : α} (h : x ∈ l.takeWhile p) : p x = true := by
  induction l with
  | nil => simp at h
  | cons a l ih =>
    rw [List.takeWhile_cons] at h
    by_cases ha : p a = true
    · rw [if_pos ha] at h
      rcases List.mem_cons.1 h with rfl | h
      · exact ha
      · exact ih h
    · rw [if_neg ha] at h; simp at h

theorem equalRange_ok (hc : Lawful c) {t : Table V F} {m : Mem} {fr : List ℕ} (h : Inv c t m fr) (hg : Grp c t) (k : K) :
    ((∀ x ∈ t.nodes, c.eq (c.key x.val) k = false) ∧ equalRangeMulti c t k = some (none, none)) ∨
    ∃ pre mid post, t.nodes = pre ++ mid ++ post ∧ mid ≠ [] ∧ (∀ x ∈ mid, c.eq (c.key x.val) k = true) ∧ (∀ x ∈ pre ++ post, c.eq (c.key x.val) k = false) ∧
      equalRangeMulti c t k = some ((mid ++ post).head?.map Node.id, post.head?.map Node.id) := by
  obtain ⟨f, rest, hh, hb, hn, -, -, hr⟩ := h.bucket hc k
  have hrun : equalRangeMulti c t k = match fromEqual c k f with
      | none => some (none, none)
      | some (y, r) => match pastEqual c k r with
        | some z => some (some y.id, some z.id)
        | none => some (some y.id, scan t (c.hash k % t.bsize + 1)) := by
    show (hashIn c k t.bsize).bind _ = _
    rw [hh]
    show (t.buckets[c.hash k % t.bsize]?).bind _ = _
    rw [hb]
    rcases hfe : fromEqual c k f with _ | ⟨y, r⟩
    · show (match fromEqual c k f with | none => _ | some (y, r) => _) = _
      rw [hfe]; rfl
    · show (match fromEqual c k f with | none => _ | some (y, r) => _) = _
      rw [hfe]
      show (match pastEqual c k r with | some z => _ | none => _) = (match pastEqual c k r with | some z => _ | none => _)
      rcases pastEqual c k r with _ | z <;> rfl
  rcases hfe : fromEqual c k f with _ | ⟨y, r⟩
  · left
    refine ⟨fun x hx => ?_, by rw [hrun, hfe]⟩
    rcases List.mem_append.1 (hn.mem_iff.1 hx) with hx | hx
    · exact fromEqual_none hfe x hx
    · exact hr x hx
  · right
    obtain ⟨a, hfa, hy, ha⟩ := fromEqual_some hfe
    have hlt : c.hash k % t.bsize < t.buckets.length := (List.getElem?_eq_some_iff.1 hb).1
    have hbf : t.buckets[c.hash k % t.bsize] = f := (List.getElem?_eq_some_iff.1 hb).2
    have hbk : t.buckets = t.buckets.take (c.hash k % t.bsize) ++ f :: t.buckets.drop (c.hash k % t.bsize + 1) := by
      conv_lhs => rw [← List.take_append_drop (c.hash k % t.bsize) t.buckets, List.drop_eq_getElem_cons hlt, hbf]
    have hnodes : t.nodes = ((t.buckets.take (c.hash k % t.bsize)).flatten ++ a) ++ (y :: r.takeWhile (fun z => c.eq (c.key z.val) k)) ++
        (r.dropWhile (fun z => c.eq (c.key z.val) k) ++ (t.buckets.drop (c.hash k % t.bsize + 1)).flatten) := by
      have e1 : r = r.takeWhile (fun z => c.eq (c.key z.val) k) ++ r.dropWhile (fun z => c.eq (c.key z.val) k) := List.takeWhile_append_dropWhile.symm
      generalize r.takeWhile (fun z => c.eq (c.key z.val) k) = u at e1 ⊢
      generalize r.dropWhile (fun z => c.eq (c.key z.val) k) = w at e1 ⊢
      unfold Table.nodes
      conv_lhs => rw [hbk, hfa, e1]
      simp only [List.flatten_append, List.flatten_cons, List.append_assoc, List.cons_append]
    have hpp : ∀ x ∈ (t.buckets.take (c.hash k % t.bsize)).flatten ++ a ++ (r.dropWhile (fun z => c.eq (c.key z.val) k) ++ (t.buckets.drop (c.hash k % t.bsize + 1)).flatten),
        c.eq (c.key x.val) k = false := by
      have hgf := grouped_tail (a := a) (y := y) (r := r) (by rw [← hfa]; exact hg f (List.mem_of_getElem? hb))
      have hfun : (fun z : Node V => c.eq (c.key y.val) (c.key z.val)) = (fun z => c.eq (c.key z.val) k) := by
        funext z
        rw [eq_congr hc hy, eq_comm' hc]
      -- nodes of the other buckets have other keys
      have hother : ∀ j g, j ≠ c.hash k % t.bsize → t.buckets[j]? = some g → ∀ x ∈ g, c.eq (c.key x.val) k = false := by
        intro j g hj hgj x hx
        by_contra hcon
        have h1 := hc.hash _ _ (by simpa using hcon : c.eq (c.key x.val) k = true)
        have h2 := h.slot j g hgj x hx
        rw [h1] at h2
        exact hj h2.symm
      intro x hx
      rcases List.mem_append.1 hx with hx | hx <;> rcases List.mem_append.1 hx with hx | hx
      · obtain ⟨g, hgm, hxg⟩ := List.mem_flatten.1 hx
        obtain ⟨j, hj, rfl⟩ := List.getElem_of_mem hgm
        rw [List.length_take] at hj
        rw [List.getElem_take] at hxg
        exact hother j _ (by omega) (List.getElem?_eq_getElem (by omega)) x hxg
      · exact ha x hx
      · have := hgf x (by rw [hfun]; exact hx)
        rw [eq_congr hc hy, eq_comm' hc] at this
        exact this
      · obtain ⟨g, hgm, hxg⟩ := List.mem_flatten.1 hx
        obtain ⟨j, hj, rfl⟩ := List.getElem_of_mem hgm
        rw [List.length_drop] at hj
        rw [List.getElem_drop] at hxg
        exact hother (c.hash k % t.bsize + 1 + j) _ (by omega) (List.getElem?_eq_getElem (by omega)) x hxg
    refine ⟨_, _, _, hnodes, by simp, ?_, hpp, ?_⟩
    · intro x hx
      rcases List.mem_cons.1 hx with rfl | hx
      · exact hy
      · exact mem_takeWhile_of (p := fun z : Node V => c.eq (c.key z.val) k) hx
    · rw [hrun, hfe]
      show (match pastEqual c k r with | some z => _ | none => _) = _
      rw [pastEqual_eq]
      generalize r.dropWhile (fun z => c.eq (c.key z.val) k) = d
      rcases d with _ | ⟨z, s⟩
      · show some (some y.id, scan t (c.hash k % t.bsize + 1)) = _
        rw [scan_eq h]; rfl
      · rfl

theorem filter_mid {pre mid post : List (Node V)} {k : K} (h1 : ∀ x ∈ mid, c.eq (c.key x.val) k = true) (h2 : ∀ x ∈ pre ++ post, c.eq (c.key x.val) k = false) :
    ((pre ++ mid ++ post).map Node.val).filter (fun v => c.eq (c.key v) k) = mid.map Node.val ∧
      without c ((pre ++ mid ++ post).map Node.val) k = (pre ++ post).map Node.val := by
  have e1 : ∀ l : List (Node V), (∀ x ∈ l, c.eq (c.key x.val) k = false) → (l.map Node.val).filter (fun v => c.eq (c.key v) k) = [] := by
    intro l hl
    rw [List.filter_eq_nil_iff]
    intro v hv
    obtain ⟨x, hx, rfl⟩ := List.mem_map.1 hv
    rw [hl x hx]; simp
  have e2 : ∀ l : List (Node V), (∀ x ∈ l, c.eq (c.key x.val) k = false) → (l.map Node.val).filter (fun v => !c.eq (c.key v) k) = l.map Node.val := by
    intro l hl
    rw [List.filter_eq_self]
    intro v hv
    obtain ⟨x, hx, rfl⟩ := List.mem_map.1 hv
    rw [hl x hx]; rfl
  have e3 : (mid.map Node.val).filter (fun v => c.eq (c.key v) k) = mid.map Node.val := by
    rw [List.filter_eq_self]
    intro v hv
    obtain ⟨x, hx, rfl⟩ := List.mem_map.1 hv
    exact h1 x hx
  have e4 : (mid.map Node.val).filter (fun v => !c.eq (c.key v) k) = [] := by
    rw [List.filter_eq_nil_iff]
    intro v hv
    obtain ⟨x, hx, rfl⟩ := List.mem_map.1 hv
    rw [h1 x hx]; simp
  have hp : ∀ x ∈ pre, c.eq (c.key x.val) k = false := fun x hx => h2 x (List.mem_append_left _ hx)
  have hq : ∀ x ∈ post, c.eq (c.key x.val) k = false := fun x hx => h2 x (List.mem_append_right _ hx)
  constructor
  · rw [List.map_append, List.map_append, List.filter_append, List.filter_append, e1 pre hp, e1 post hq, e3]; simp
  · unfold without
    rw [List.map_append, List.map_append, List.filter_append, List.filter_append, e2 pre hp, e2 post hq, e4, List.map_append]; simp

theorem grp_erase {t t' : Table V F} {i : ℕ} {f : List (Node V)} {p : ℕ} (hg : Grp c t) (hb : t.buckets[i]? = some f)
    (he : t'.buckets = t.buckets.set i (f.eraseP (fun z => z.id == p))) : Grp c t' := by
  intro g hgm
  rw [he] at hgm
  rcases List.mem_or_eq_of_mem_set hgm with hm | rfl
  · exact hg g hm
  · have hf := hg f (List.mem_of_getElem? hb)
    rcases List.exists_or_eq_self_of_eraseP (fun z : Node V => z.id == p) f with h | ⟨y, a, r, -, -, h1, h2⟩
    · rw [h]; exact hf
    · rw [h2]; rw [h1] at hf; exact grouped_remove hf

/-- two tables beside each other hold two lists -/
structure MHolds (c : Cfg K V F) (w : World V F) (r : List V × List V) : Prop where
  a : MRel c w.a w.m (w.b.nodes.map Node.id) r.1
  b : MRel c w.b w.m (w.a.nodes.map Node.id) r.2

theorem MHolds.first {w : World V F} {r : List V × List V} (h : MHolds c w r) {t : Table V F} {m : Mem} {L : List V}
    (ht : MRel c t m (w.b.nodes.map Node.id) L) : MHolds c { w with a := t, m := m } (L, r.2) :=
  ⟨ht, ⟨h.b.inv.other ht.inv, h.b.vals, h.b.grp⟩⟩

theorem found_of (hc : Lawful c) {t : Table V F} {m : Mem} {fr : List ℕ} {L : List V} (h : MRel c t m fr L) (k : K) :
    ∃ p, find c t k = some p ∧ Found c L k (p.map Node.val) ∧ ∀ y, p = some y → y ∈ t.nodes := by
  obtain ⟨p, h1, h2⟩ := find_ok hc h.inv k
  refine ⟨p, h1, ?_, ?_⟩
  · rcases h2 with ⟨rfl, h2⟩ | ⟨y, rfl, h2, h3⟩
    · intro v hv
      obtain ⟨x, hx, rfl⟩ := List.mem_map.1 (h.vals.mem_iff.2 hv)
      exact h2 x hx
    · exact ⟨h.vals.mem_iff.1 (List.mem_map_of_mem h2), h3⟩
  · rintro y rfl
    rcases h2 with ⟨h2, -⟩ | ⟨z, h2, h3, -⟩
    · cases h2
    · cases h2; exact h3

theorem without_perm {L L' : List V} (h : L.Perm L') (k : K) : (without c L k).Perm (without c L' k) := h.filter _

theorem mstep_ok (hc : Lawful c) (o : MOp K V F) {w : World V F} {r : List V × List V} (h : MHolds c w r) :
    ∃ w' out r', stepMulti c w o = some (w', out) ∧ MRef c r o out r' ∧ MHolds c w' r' := by
  cases o with
  | insert v =>
    obtain ⟨t, m, p, h1, h2⟩ := h.a.insert hc v
    refine ⟨{ w with a := t, m := m }, .none, (v :: r.1, r.2), ?_, ⟨rfl, rfl⟩, h.first h2⟩
    show (insertMulti c w.a w.m v).bind _ = _
    rw [h1]; rfl
  | emplace v =>
    obtain ⟨t, m, p, h1, h2⟩ := h.a.emplace hc v
    refine ⟨{ w with a := t, m := m }, .none, (v :: r.1, r.2), ?_, ⟨rfl, rfl⟩, h.first h2⟩
    show (emplaceMulti c w.a w.m v).bind _ = _
    rw [h1]; rfl
  | insertRange l =>
    obtain ⟨t, m, h1, h2⟩ := h.a.insertRange hc l
    refine ⟨{ w with a := t, m := m }, .none, (l ++ r.1, r.2), ?_, ⟨rfl, rfl⟩, h.first h2⟩
    show (insertMultiRange c w.a w.m l).bind _ = _
    rw [h1]; rfl
  | eraseAt k =>
    obtain ⟨p, h1, h2, h3⟩ := found_of hc h.a k
    rcases p with _ | y
    · refine ⟨{ w with a := w.a, m := w.m }, .value none, r, ?_, ⟨none, rfl, h2, rfl, rfl⟩, h⟩
      show (find c w.a k).bind _ = _
      rw [h1]; rfl
    · obtain ⟨t, m, g1, g2, g3, -, -, i, f, g4, g5⟩ := erasePos_ok h.a.inv y (h3 y rfl)
      have hp : r.1.Perm (y.val :: t.vals) := h.a.vals.symm.trans (g3.map Node.val)
      refine ⟨{ w with a := t, m := m }, .value (some y.val), (t.vals, r.2), ?_, ⟨some y.val, rfl, h2, rfl, hp⟩,
        h.first ⟨g2, List.Perm.refl _, grp_erase h.a.grp g4 g5⟩⟩
      show (find c w.a k).bind _ = _
      rw [h1]
      show (erasePos c w.a w.m (some y.id)).bind _ = _
      rw [g1]; rfl
  | eraseEqual k =>
    rcases equalRange_ok hc h.a.inv h.a.grp k with ⟨h1, h2⟩ | ⟨pre, mid, post, hn, -, h1, h2, h3⟩
    · refine ⟨w, .none, (without c r.1 k, r.2), ?_, ⟨rfl, rfl⟩, ?_⟩
      · show (equalRangeMulti c w.a k).bind _ = _
        rw [h2]; rfl
      · rw [without_none (hasKey_false.2 fun v hv => ?_)]
        · exact h
        · obtain ⟨x, hx, rfl⟩ := List.mem_map.1 (h.a.vals.mem_iff.2 hv)
          exact h1 x hx
    · obtain ⟨t, m, g1, g2, g3, -, g5⟩ := c89_erase_range h.a.inv pre mid post hn
      refine ⟨{ w with a := t, m := m }, .none, (without c r.1 k, r.2), ?_, ⟨rfl, rfl⟩, h.first ⟨g2, ?_, g5 h.a.grp⟩⟩
      · show (equalRangeMulti c w.a k).bind _ = _
        rw [h3]
        show (eraseRange c w.a w.m _ _).bind _ = _
        rw [g1]; rfl
      · have := without_perm (c := c) h.a.vals k
        unfold Table.vals at this ⊢
        rw [hn, (filter_mid h1 h2).2, ← g3] at this
        exact this
  | eraseAll =>
    obtain ⟨t, m, g1, g2, g3, -, g5⟩ := c89_erase_range h.a.inv [] w.a.nodes [] (by simp)
    refine ⟨{ w with a := t, m := m }, .none, ([], r.2), ?_, ⟨rfl, rfl⟩, h.first ⟨g2, ?_, g5 h.a.grp⟩⟩
    · show (eraseRange c w.a w.m (scan w.a 0) none).bind _ = _
      rw [scan_eq h.a.inv, List.drop_zero]
      rw [List.append_nil] at g1
      have g1' : eraseRange c w.a w.m (w.a.buckets.flatten.head?.map Node.id) none = some (t, m) := g1
      rw [g1']; rfl
    · unfold Table.vals; rw [g3]; exact List.Perm.refl _
  | clear =>
    obtain ⟨t, m, h1, h2, h3, -⟩ := clear_ok h.a.inv
    refine ⟨{ w with a := t, m := m }, .none, ([], r.2), ?_, ⟨rfl, rfl⟩, h.first ⟨h2, ?_, ?_⟩⟩
    · show (clear w.a w.m).bind _ = _
      rw [h1]; rfl
    · unfold Table.vals; rw [h3]; exact List.Perm.refl _
    · intro f hf
      have : f = [] := List.flatten_eq_nil_iff.1 h3 f hf
      rw [this]; trivial
  | find k =>
    obtain ⟨p, h1, h2, -⟩ := found_of hc h.a k
    refine ⟨w, .value (p.map Node.val), r, ?_, ⟨⟨_, rfl, h2⟩, rfl⟩, h⟩
    show (find c w.a k).bind _ = _
    rw [h1]; rfl
  | count k =>
    refine ⟨w, .num (r.1.countP (fun v => c.eq (c.key v) k)), r, ?_, ⟨rfl, rfl⟩, h⟩
    show (count c w.a k).bind _ = _
    rw [count_ok hc h.a.inv k, h.a.vals.countP_eq]; rfl
  | equalRange k =>
    rcases equalRange_ok hc h.a.inv h.a.grp k with ⟨h1, h2⟩ | ⟨pre, mid, post, hn, -, h1, h2, h3⟩
    · refine ⟨w, .listing [], r, ?_, ⟨⟨[], rfl, ?_⟩, rfl⟩, h⟩
      · show (equalRangeMulti c w.a k).bind _ = _
        rw [h2]; rfl
      · have : r.1.filter (fun v => c.eq (c.key v) k) = [] := by
          rw [List.filter_eq_nil_iff]
          intro v hv
          obtain ⟨x, hx, rfl⟩ := List.mem_map.1 (h.a.vals.mem_iff.2 hv)
          rw [h1 x hx]; simp
        rw [this]
    · refine ⟨w, .listing (mid.map Node.val), r, ?_, ⟨⟨_, rfl, ?_⟩, rfl⟩, h⟩
      · show (equalRangeMulti c w.a k).bind _ = _
        rw [h3]
        show (walk c w.a _ _ _).bind _ = _
        rw [walk_ok h.a.inv mid post pre hn _ (by
          show mid.length < w.a.nodes.length + 1
          rw [hn]; simp; omega)]
        rfl
      · have := h.a.vals.filter (fun v => c.eq (c.key v) k)
        unfold Table.vals at this
        rw [hn, (filter_mid h1 h2).1] at this
        exact this
  | size =>
    refine ⟨w, .num w.a.size, r, rfl, ⟨?_, rfl⟩, h⟩
    rw [h.a.inv.sz, ← h.a.vals.length_eq]
    unfold Table.vals
    rw [List.length_map]
  | elements =>
    refine ⟨w, .listing w.a.vals, r, ?_, ⟨⟨_, rfl, h.a.vals⟩, rfl⟩, h⟩
    show (elements c w.a).bind _ = _
    rw [elements_ok h.a.inv]; rfl
  | rehash n =>
    obtain ⟨t, m, h1, h2⟩ := rehash_ok hc h.a.inv n
    refine ⟨{ w with a := t, m := m }, .none, r, ?_, ⟨rfl, rfl⟩, h.first (h.a.same h2)⟩
    show (rehash c w.a w.m n).bind _ = _
    rw [h1]; rfl
  | reserve n =>
    obtain ⟨t, m, h1, h2⟩ := rehash_ok hc h.a.inv (c.wanted n w.a.mlf)
    refine ⟨{ w with a := t, m := m }, .none, r, ?_, ⟨rfl, rfl⟩, h.first (h.a.same h2)⟩
    show (rehash c w.a w.m (c.wanted n w.a.mlf)).bind _ = _
    rw [h1]; rfl
  | maxLoad f =>
    refine ⟨{ w with a := { w.a with mlf := f } }, .none, r, rfl, ⟨rfl, rfl⟩, ⟨⟨?_, h.a.vals, h.a.grp⟩, h.b⟩⟩
    exact ⟨h.a.inv.len, h.a.inv.pos, h.a.inv.sz, h.a.inv.slot, h.a.inv.ids, h.a.inv.live, h.a.inv.fresh, h.a.inv.nd⟩
  | swap => exact ⟨_, .none, (r.2, r.1), rfl, ⟨rfl, rfl⟩, ⟨h.b, h.a⟩⟩
  | copyOther =>
    obtain ⟨t, m, h1, h2, h3, h4⟩ := assign_ok h.a.inv h.b.inv
    refine ⟨{ w with a := t, m := m }, .none, (r.2, r.2), ?_, ⟨rfl, rfl⟩, h.first ⟨h2, ?_, h4 h.b.grp⟩⟩
    · show (assign w.a w.m w.b).bind _ = _
      rw [h1]; rfl
    · rw [h3]; exact h.b.vals

theorem mrun_ok (hc : Lawful c) (ops : List (MOp K V F)) {w : World V F} {r : List V × List V} (h : MHolds c w r) :
    ∃ w' outs r', runMulti c ops w = some (w', outs) ∧ MRun c ops r outs r' ∧ MHolds c w' r' := by
  induction ops generalizing w r with
  | nil => exact ⟨w, [], r, rfl, MRun.nil r, h⟩
  | cons o ops ih =>
    obtain ⟨w1, out, r1, h1, h2, h3⟩ := mstep_ok hc o h
    obtain ⟨w2, outs, r2, g1, g2, g3⟩ := ih h3
    refine ⟨w2, out :: outs, r2, ?_, MRun.cons h2 g2, g3⟩
    show (stepMulti c w o).bind _ = _
    rw [h1]
    show (runMulti c ops w1).bind _ = _
    rw [g1]; rfl

theorem mholds_start (p p' : ℕ) (hp : 0 < p) (hp' : 0 < p') :
    MHolds c (⟨⟨List.replicate p [], p, 0, c.one⟩, ⟨List.replicate p' [], p', 0, c.one⟩, noMem⟩ : World V F) ([], []) := by
  have h := holds_start (c := c) 0 0 p p' hp hp' rfl
  refine ⟨⟨h.a.inv, h.a.vals, ?_⟩, ⟨h.b.inv, h.b.vals, ?_⟩⟩ <;>
  · intro f hf
    rw [(List.mem_replicate.1 hf).2]; trivial

/-- C90: any history of operations on two `unordered_multimap`s (or `unordered_multiset`s) runs without undefined behaviour and gives answers that are right for bags of
elements: every element inserted is found, counted and listed as often as it was put in, the range of a key holds exactly its elements -/
theorem c90_history (hc : Lawful c) (n n' : ℕ) (ops : List (MOp K V F)) :
    ∃ a b w outs r, init c n = some a ∧ init c n' = some b ∧ runMulti c ops ⟨a, b, noMem⟩ = some (w, outs) ∧
      MRun c ops ([], []) outs r ∧ elements c w.a = some w.a.vals ∧ w.a.vals.Perm r.1 := by
  obtain ⟨p, h1, h2, -⟩ := init_ok (c := c) n
  obtain ⟨p', h1', h2', -⟩ := init_ok (c := c) n'
  obtain ⟨w, outs, r, g1, g2, g3⟩ := mrun_ok hc ops (mholds_start (c := c) p p' (by omega) (by omega))
  exact ⟨_, _, w, outs, r, h1, h1', g1, g2, elements_ok g3.a.inv, g3.a.vals⟩

/-- C90: a table made from a range or a list holds all its elements -/
theorem c90_of_range (hc : Lawful c) (n : ℕ) (l : List V) :
    ∃ t m, ofMulti c noMem n l = some (t, m) ∧ elements c t = some t.vals ∧ t.vals.Perm l ∧ t.size = l.length := by
  obtain ⟨p, h1, h2, -⟩ := init_ok (c := c) (max n l.length)
  obtain ⟨t, m, g1, g2⟩ := (mholds_start (c := c) p p (by omega) (by omega)).a.insertEach hc l
  have g3 : t.vals.Perm l := by have := g2.vals; rwa [List.append_nil] at this
  refine ⟨t, m, ?_, elements_ok g2.inv, g3, ?_⟩
  · show (init c (max n l.length)).bind _ = _
    rw [h1]; exact g1
  · rw [g2.inv.sz, ← g3.length_eq]; unfold Table.vals; rw [List.length_map]

/-- C90, a defect: `erase(key)` counts what it erased only after erasing it, so with a key that is there it always follows a pointer to a freed node -/
theorem c90_erase_key_undefined (hc : Lawful c) {t : Table V F} {m : Mem} {fr : List ℕ} {L : List V} (h : MRel c t m fr L) (k : K) :
    if hasKey c L k then eraseMulti c t m k = none else eraseMulti c t m k = some (t, m, 0) := by
  rcases equalRange_ok hc h.inv h.grp k with ⟨h1, h2⟩ | ⟨pre, mid, post, hn, hm, h1, h2, h3⟩
  · rw [if_neg]
    · show (equalRangeMulti c t k).bind _ = _
      rw [h2]; rfl
    · rw [hasKey_iff]
      rintro ⟨v, hv, he⟩
      obtain ⟨x, hx, rfl⟩ := List.mem_map.1 (h.vals.mem_iff.2 hv)
      rw [h1 x hx] at he; cases he
  · rcases mid with _ | ⟨y, mid⟩
    · exact absurd rfl hm
    rw [if_pos]
    · obtain ⟨t', m', g1, g2, g3, -⟩ := c89_erase_range h.inv pre (y :: mid) post hn
      have hne := head_ne h.inv hn
      have hgone : y.id ∉ t'.nodes.map Node.id := by
        rw [g3]
        have hnd := h.inv.nodupIds
        rw [hn] at hnd
        have hp : (pre ++ (y :: mid) ++ post).Perm (y :: (mid ++ (pre ++ post))) := by
          rw [List.append_assoc, List.cons_append]
          refine List.perm_middle.trans (List.Perm.cons _ ?_)
          exact List.perm_append_comm_assoc _ _ _
        have := (hp.map Node.id).nodup_iff.1 hnd
        rw [List.map_cons, List.nodup_cons, List.map_append] at this
        exact fun hm => this.1 (List.mem_append_right _ hm)
      have hd : deref t' y.id = none := by
        have : t'.buckets.findSome? (suffixFrom y.id) = none := by
          rw [List.findSome?_eq_none_iff]
          intro f hf
          apply suffixFrom_none
          intro hm
          obtain ⟨x, hx, hxe⟩ := List.mem_map.1 hm
          exact hgone (List.mem_map.2 ⟨x, List.mem_flatten.2 ⟨f, hf, hx⟩, hxe⟩)
        unfold deref; rw [this]
      show (equalRangeMulti c t k).bind _ = _
      rw [h3]
      show (if some y.id ≠ none then _ else some (t, m, 0)) = _
      rw [if_pos (by simp)]
      show (eraseRange c t m _ _).bind _ = _
      rw [g1]
      have hw : walk c t' (post.head?.map Node.id) (t.buckets.flatten.length + 1) (some y.id) = none := by
        show (if some y.id = post.head?.map Node.id then _ else _) = _
        rw [if_neg hne]
        show (deref t' y.id).bind _ = _
        rw [hd]; rfl
      show (walk c t' (post.head?.map Node.id) (t.buckets.flatten.length + 1) (some y.id)).bind _ = _
      rw [hw]; rfl
    · rw [hasKey_iff]
      refine ⟨y.val, h.vals.mem_iff.1 (List.mem_map_of_mem ?_), h1 y (by simp)⟩
      rw [hn]; simp

/-- three elements with key 5 and one with key 106 in the same bucket -/
example : ∃ t m, ofMulti demoCfg noMem 0 [(5, "a"), (106, "x"), (5, "b"), (5, "c")] = some (t, m) ∧ t.vals.Perm [(5, "a"), (106, "x"), (5, "b"), (5, "c")] ∧
    count demoCfg t 5 = some 3 := by
  obtain ⟨t, m, h1, -, h3, -⟩ := c90_of_range demo_lawful 0 [(5, "a"), (106, "x"), (5, "b"), (5, "c")]
  obtain ⟨p, h1', h2', -⟩ := init_ok (c := demoCfg) (max 0 [(5, "a"), (106, "x"), (5, "b"), (5, "c")].length)
  obtain ⟨t2, m2, g1, g2⟩ := (mholds_start (c := demoCfg) p p (by omega) (by omega)).a.insertEach demo_lawful [(5, "a"), (106, "x"), (5, "b"), (5, "c")]
  have e : ofMulti demoCfg noMem 0 [(5, "a"), (106, "x"), (5, "b"), (5, "c")] = some (t2, m2) := by
    have hof : ∀ l, ofMulti demoCfg noMem 0 l = (init demoCfg (max 0 l.length)).bind (fun t => insertMultiEach demoCfg l t noMem) := fun _ => rfl
    rw [hof, h1']; exact g1
  have e2 : t = t2 := by rw [h1] at e; exact congrArg Prod.fst (Option.some.inj e)
  refine ⟨t, m, h1, h3, ?_⟩
  rw [e2, count_ok demo_lawful g2.inv 5, ← e2, h3.countP_eq]
  decide

end Verif.Hash
