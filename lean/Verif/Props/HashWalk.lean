import Verif.Props.HashOps

/-! # The hash table: iterating, copying, clearing -/

namespace Verif.Hash

variable {K V F : Type} {c : Cfg K V F}

theorem flatten_at {α : Type} (bs : List (List α)) (pre post : List α) (y : α) (h : bs.flatten = pre ++ y :: post) :
    ∃ bs1 a r bs2, bs = bs1 ++ (a ++ y :: r) :: bs2 ∧ pre = bs1.flatten ++ a ∧ post = r ++ bs2.flatten := by
  induction bs generalizing pre with
  | nil => simp at h
  | cons f bs ih =>
    rw [List.flatten_cons] at h
    rcases List.append_eq_append_iff.1 h with ⟨a, h1, h2⟩ | ⟨a, h1, h2⟩
    · obtain ⟨bs1, a', r, bs2, g1, g2, g3⟩ := ih a h2
      exact ⟨f :: bs1, a', r, bs2, by rw [g1]; rfl, by rw [h1, g2]; simp, g3⟩
    · rcases a with _ | ⟨z, a⟩
      · obtain ⟨bs1, a', r, bs2, g1, g2, g3⟩ := ih [] (by simpa using h2.symm)
        refine ⟨f :: bs1, a', r, bs2, by rw [g1]; rfl, ?_, g3⟩
        have : pre = f := by simpa using h1.symm
        rw [this]
        simp only [List.flatten_cons, List.append_assoc, ← g2, List.append_nil]
      · simp only [List.cons_append, List.cons.injEq] at h2
        obtain ⟨rfl, h2⟩ := h2
        exact ⟨[], pre, a, bs, by rw [h1]; rfl, by simp, h2⟩

theorem suffixFrom_none (p : ℕ) (f : List (Node V)) (h : p ∉ f.map Node.id) : suffixFrom p f = none := by
  induction f with
  | nil => rfl
  | cons y r ih =>
    simp only [List.map_cons, List.mem_cons, not_or] at h
    unfold suffixFrom
    rw [if_neg (fun e => h.1 e.symm)]
    exact ih h.2

theorem suffixFrom_at (a r : List (Node V)) (y : Node V) (h : y.id ∉ a.map Node.id) : suffixFrom y.id (a ++ y :: r) = some (y :: r) := by
  induction a with
  | nil => show suffixFrom y.id (y :: r) = _; unfold suffixFrom; rw [if_pos rfl]
  | cons z a ih =>
    simp only [List.map_cons, List.mem_cons, not_or] at h
    show suffixFrom y.id (z :: (a ++ y :: r)) = _
    unfold suffixFrom
    rw [if_neg (fun e => h.1 e.symm)]
    exact ih h.2

theorem deref_at {t : Table V F} {bs1 bs2 : List (List (Node V))} {a r : List (Node V)} {y : Node V}
    (hb : t.buckets = bs1 ++ (a ++ y :: r) :: bs2) (hid : (t.nodes.map Node.id).Nodup) : deref t y.id = some (y, r) := by
  have hnot : y.id ∉ (bs1.flatten ++ a).map Node.id := by
    have : t.nodes = (bs1.flatten ++ a) ++ y :: (r ++ bs2.flatten) := by unfold Table.nodes; rw [hb]; simp
    rw [this, List.map_append, List.map_cons] at hid
    intro hm
    exact (List.nodup_append.1 hid).2.2 _ hm _ List.mem_cons_self rfl
  rw [List.map_append, List.mem_append, not_or] at hnot
  have h1 : bs1.findSome? (suffixFrom y.id) = none := by
    rw [List.findSome?_eq_none_iff]
    intro f hf
    apply suffixFrom_none
    intro hm
    obtain ⟨x, hx, hxe⟩ := List.mem_map.1 hm
    exact hnot.1 (List.mem_map.2 ⟨x, List.mem_flatten.2 ⟨f, hf, hx⟩, hxe⟩)
  have h2 : t.buckets.findSome? (suffixFrom y.id) = some (y :: r) := by
    rw [hb, List.findSome?_append, h1, List.findSome?_cons, suffixFrom_at a r y hnot.2]; rfl
  unfold deref; rw [h2]

theorem scan_eq {t : Table V F} {m : Mem} {fr : List ℕ} (h : Inv c t m fr) (i : ℕ) :
    scan t i = ((t.buckets.drop i).flatten.head?).map Node.id := by
  unfold scan
  rw [h.len, List.take_length, List.head?_flatten]

theorem Inv.nodupIds {t : Table V F} {m : Mem} {fr : List ℕ} (h : Inv c t m fr) : (t.nodes.map Node.id).Nodup :=
  (List.nodup_append.1 h.ids).1

/-- `++` goes to the next node in the order of iteration -/
theorem incr_ok {t : Table V F} {m : Mem} {fr : List ℕ} (h : Inv c t m fr) {pre post : List (Node V)} {y : Node V}
    (hn : t.nodes = pre ++ y :: post) : incr c t (some y.id) = some (post.head?.map Node.id) ∧ ∃ r, deref t y.id = some (y, r) := by
  obtain ⟨bs1, a, r, bs2, hb, -, hpost⟩ := flatten_at _ _ _ _ hn
  have hd := deref_at hb h.nodupIds
  refine ⟨?_, r, hd⟩
  show (deref t y.id).bind _ = _
  rw [hd]
  rcases r with _ | ⟨z, r⟩
  · show (hashIn c (c.key y.val) t.bsize).bind _ = _
    have hi : t.buckets[bs1.length]? = some (a ++ [y]) := by rw [hb]; simp
    have hs := h.slot _ _ hi y (by simp)
    unfold hashIn
    rw [if_neg (by have := h.pos; omega), hs]
    show some (scan t (bs1.length + 1)) = _
    rw [scan_eq h, hpost]
    have : t.buckets.drop (bs1.length + 1) = bs2 := by
      rw [hb, List.drop_append, List.drop_of_length_le (by omega)]
      simp
    rw [this]; rfl
  · show some (some z.id) = _
    rw [hpost]; rfl

theorem head_ne {t : Table V F} {m : Mem} {fr : List ℕ} (h : Inv c t m fr) {pre mid post : List (Node V)} {y : Node V}
    (hn : t.nodes = pre ++ (y :: mid) ++ post) : some y.id ≠ post.head?.map Node.id := by
  rcases post with _ | ⟨z, post⟩
  · simp
  · intro e
    have e' : y.id = z.id := by simpa using e
    have := h.nodupIds
    rw [hn, List.map_append, List.nodup_append] at this
    exact this.2.2 y.id (by simp) z.id (by simp) e'

/-- a loop from one place to a later one sees exactly the elements between -/
theorem walk_ok {t : Table V F} {m : Mem} {fr : List ℕ} (h : Inv c t m fr) (mid : List (Node V)) (post pre : List (Node V))
    (hn : t.nodes = pre ++ mid ++ post) (fuel : ℕ) (hf : mid.length < fuel) :
    walk c t (post.head?.map Node.id) fuel ((mid ++ post).head?.map Node.id) = some (mid.map Node.val) := by
  induction mid generalizing pre fuel with
  | nil =>
    obtain ⟨k, rfl⟩ : ∃ k, fuel = k + 1 := ⟨fuel - 1, by simp at hf; omega⟩
    show (if post.head?.map Node.id = post.head?.map Node.id then some [] else _) = _
    rw [if_pos rfl]; rfl
  | cons y mid ih =>
    obtain ⟨k, rfl⟩ : ∃ k, fuel = k + 1 := ⟨fuel - 1, by omega⟩
    have hn' : t.nodes = pre ++ y :: (mid ++ post) := by rw [hn]; simp
    obtain ⟨h1, r, h2⟩ := incr_ok h hn'
    have hne := head_ne h hn
    have hi := ih (pre ++ [y]) (by rw [hn]; simp) k (by simp at hf; omega)
    show (if some y.id = post.head?.map Node.id then _ else _) = _
    rw [if_neg hne]
    show (deref t y.id).bind _ = _
    rw [h2]
    show (incr c t (some y.id)).bind _ = _
    rw [h1]
    show (walk c t (post.head?.map Node.id) k ((mid ++ post).head?.map Node.id)).bind _ = _
    rw [hi]; rfl

/-- iterating gives every element once -/
theorem elements_ok {t : Table V F} {m : Mem} {fr : List ℕ} (h : Inv c t m fr) : elements c t = some t.vals := by
  have := walk_ok h t.nodes [] [] (by simp) (t.buckets.flatten.length + 1) (by unfold Table.nodes; omega)
  unfold elements start
  rw [scan_eq h, List.drop_zero]
  rw [List.append_nil] at this
  exact this

/-- the static part of a table's invariant does not depend on the memory -/
theorem Inv.reframe {t : Table V F} {m m' : Mem} {fr fr' : List ℕ} (h : Inv c t m fr) (h1 : (t.nodes.map Node.id ++ fr').Nodup)
    (h2 : ∀ p ∈ t.nodes.map Node.id ++ fr', p ∈ m'.live) (h3 : ∀ p ∈ m'.live, p < m'.next) (h4 : m'.live.Nodup) : Inv c t m' fr' :=
  ⟨h.len, h.pos, h.sz, h.slot, h1, h2, h3, h4⟩

/-- the other table is not touched -/
theorem Inv.other {t b : Table V F} {m m' : Mem} {fr : List ℕ} (hb : Inv c b m fr) (h : Inv c t m' (b.nodes.map Node.id)) :
    Inv c b m' (t.nodes.map Node.id) :=
  hb.reframe (List.perm_append_comm.nodup_iff.1 h.ids) (fun p hp => h.live p (List.perm_append_comm.mem_iff.1 hp)) h.fresh h.nd

theorem destroyAll_ok (l : List (Node V)) (m : Mem) (fr : List ℕ) (h1 : (l.map Node.id ++ fr).Nodup)
    (h2 : ∀ p ∈ l.map Node.id ++ fr, p ∈ m.live) (h3 : ∀ p ∈ m.live, p < m.next) (h4 : m.live.Nodup) :
    ∃ m', m.destroyAll l = some m' ∧ (∀ p ∈ fr, p ∈ m'.live) ∧ (∀ p ∈ m'.live, p < m'.next) ∧ m'.live.Nodup ∧
      (∀ p, p ∈ m'.live ↔ p ∈ m.live ∧ p ∉ l.map Node.id) := by
  induction l generalizing m with
  | nil => exact ⟨m, rfl, fun p hp => h2 p (by simpa using hp), h3, h4, by simp⟩
  | cons x r ih =>
    have hx : x.id ∈ m.live := h2 _ (by simp)
    rw [List.map_cons, List.cons_append, List.nodup_cons] at h1
    obtain ⟨m', g1, g2, g3, g4, g5⟩ := ih ⟨m.next, m.live.erase x.id⟩ h1.2
      (by
        intro p hp
        refine (List.mem_erase_of_ne ?_).2 (h2 p (by rw [List.map_cons, List.cons_append]; exact List.mem_cons_of_mem _ hp))
        rintro rfl; exact h1.1 hp)
      (fun p hp => h3 p (List.mem_of_mem_erase hp)) (h4.erase _)
    refine ⟨m', ?_, g2, g3, g4, ?_⟩
    · show (m.destroy x.id).bind _ = _
      unfold Mem.destroy
      rw [if_pos hx]; exact g1
    · intro p
      rw [g5, h4.mem_erase_iff]
      simp only [List.map_cons, List.mem_cons, not_or]
      constructor
      · rintro ⟨⟨a, b⟩, d⟩; exact ⟨b, a, d⟩
      · rintro ⟨b, a, d⟩; exact ⟨⟨a, b⟩, d⟩

theorem clear_ok {t : Table V F} {m : Mem} {fr : List ℕ} (h : Inv c t m fr) :
    ∃ t' m', clear t m = some (t', m') ∧ Inv c t' m' fr ∧ t'.nodes = [] ∧ t'.bsize = t.bsize ∧ t'.mlf = t.mlf ∧
      ∀ p, p ∈ m'.live ↔ p ∈ m.live ∧ p ∉ t.nodes.map Node.id := by
  by_cases hz : t.size = 0
  · have hnil : t.nodes = [] := List.length_eq_zero_iff.1 (by rw [← h.sz, hz])
    refine ⟨t, m, by unfold clear; rw [if_neg (by simpa using hz)], h, hnil, rfl, rfl, by simp [hnil]⟩
  · obtain ⟨m', g1, g2, g3, g4, g5⟩ := destroyAll_ok t.nodes m fr h.ids h.live h.fresh h.nd
    have ht : t.buckets.take t.bsize = t.buckets := by rw [h.len, List.take_length]
    have hd : t.buckets.drop t.bsize = [] := by rw [h.len, List.drop_length]
    have hnil : Table.nodes ({ t with buckets := t.buckets.map (fun _ => []), size := 0 } : Table V F) = [] := by
      unfold Table.nodes
      rw [List.flatten_eq_nil_iff]
      intro f hf
      obtain ⟨_, _, rfl⟩ := List.mem_map.1 hf; rfl
    refine ⟨{ t with buckets := t.buckets.map (fun _ => []), size := 0 }, m', ?_, ⟨by simp [h.len], h.pos, by rw [hnil]; rfl, ?_, ?_, ?_, g3, g4⟩,
      hnil, rfl, rfl, g5⟩
    · unfold clear
      rw [if_pos hz, ht, hd, List.append_nil]
      show (m.destroyAll t.nodes).bind _ = _
      rw [g1]; rfl
    · intro i f hf x hx
      have := List.mem_of_getElem? hf
      obtain ⟨_, _, rfl⟩ := List.mem_map.1 this
      cases hx
    · rw [hnil]; exact List.Nodup.of_append_right h.ids
    · rw [hnil]; exact g2

theorem copyChain_ok (f : List (Node V)) (m : Mem) :
    (copyChain f m).1.map Node.val = f.map Node.val ∧ ((copyChain f m).1.map Node.id).Nodup ∧ m.next ≤ (copyChain f m).2.next ∧
      (∀ p ∈ (copyChain f m).1.map Node.id, m.next ≤ p ∧ p < (copyChain f m).2.next) ∧
      (copyChain f m).2.live.Perm ((copyChain f m).1.map Node.id ++ m.live) := by
  induction f generalizing m with
  | nil => exact ⟨rfl, List.nodup_nil, Nat.le_refl _, by simp [copyChain], List.Perm.refl _⟩
  | cons y r ih =>
    obtain ⟨h1, h2, h3, h4, h5⟩ := ih (m.create y.val).2
    have e : copyChain (y :: r) m = ((m.create y.val).1 :: (copyChain r (m.create y.val).2).1, (copyChain r (m.create y.val).2).2) := rfl
    have e1 : (m.create y.val).2.next = m.next + 1 := rfl
    have e2 : (m.create y.val).1.id = m.next := rfl
    have e3 : (m.create y.val).2.live = m.next :: m.live := rfl
    have e4 : (m.create y.val).1.val = y.val := rfl
    rw [e]
    rw [e1] at h3 h4
    refine ⟨?_, ?_, ?_, ?_, ?_⟩
    · simp only [List.map_cons, h1, e4]
    · simp only [List.map_cons, e2]
      exact List.nodup_cons.2 ⟨fun hm => by have := (h4 _ hm).1; omega, h2⟩
    · show m.next ≤ (copyChain r (m.create y.val).2).2.next; omega
    · intro p hp
      simp only [List.map_cons, e2, List.mem_cons] at hp
      show m.next ≤ p ∧ p < (copyChain r (m.create y.val).2).2.next
      rcases hp with rfl | hp
      · exact ⟨Nat.le_refl _, by omega⟩
      · have := h4 p hp; exact ⟨by omega, this.2⟩
    · simp only [List.map_cons, e2]
      rw [e3] at h5
      exact h5.trans List.perm_middle

theorem copyChains_ok (bs : List (List (Node V))) (m : Mem) :
    (copyChains bs m).1.map (List.map Node.val) = bs.map (List.map Node.val) ∧ ((copyChains bs m).1.flatten.map Node.id).Nodup ∧
      m.next ≤ (copyChains bs m).2.next ∧
      (∀ p ∈ (copyChains bs m).1.flatten.map Node.id, m.next ≤ p ∧ p < (copyChains bs m).2.next) ∧
      (copyChains bs m).2.live.Perm ((copyChains bs m).1.flatten.map Node.id ++ m.live) := by
  induction bs generalizing m with
  | nil => exact ⟨rfl, List.nodup_nil, Nat.le_refl _, by simp [copyChains], List.Perm.refl _⟩
  | cons f r ih =>
    obtain ⟨h1, h2, h3, h4, h5⟩ := copyChain_ok f m
    obtain ⟨g1, g2, g3, g4, g5⟩ := ih (copyChain f m).2
    have e : copyChains (f :: r) m = ((copyChain f m).1 :: (copyChains r (copyChain f m).2).1, (copyChains r (copyChain f m).2).2) := rfl
    rw [e]
    refine ⟨?_, ?_, ?_, ?_, ?_⟩
    · simp only [List.map_cons, h1, g1]
    · simp only [List.flatten_cons, List.map_append]
      refine List.nodup_append.2 ⟨h2, g2, ?_⟩
      intro p hp q hq
      have a1 := (h4 p hp).2
      have a2 := (g4 q hq).1
      omega
    · show m.next ≤ (copyChains r (copyChain f m).2).2.next; omega
    · intro p hp
      simp only [List.flatten_cons, List.map_append, List.mem_append] at hp
      show m.next ≤ p ∧ p < (copyChains r (copyChain f m).2).2.next
      rcases hp with hp | hp
      · have := h4 p hp; exact ⟨this.1, by omega⟩
      · have := g4 p hp; exact ⟨by omega, this.2⟩
    · simp only [List.flatten_cons, List.map_append]
      refine g5.trans ?_
      refine (h5.append_left _).trans ?_
      rw [← List.append_assoc]
      exact List.perm_append_comm.append_right _

theorem grouped_congr {f g : List (Node V)} (h : f.map Node.val = g.map Node.val) (hf : Grouped c f) : Grouped c g := by
  induction f generalizing g with
  | nil =>
    have : g = [] := by simpa using h.symm
    rw [this]; trivial
  | cons x r ih =>
    rcases g with _ | ⟨y, s⟩
    · simp at h
    simp only [List.map_cons, List.cons.injEq] at h
    refine ⟨?_, ih h.2 hf.2⟩
    have key : ∀ l : List (Node V), (l.dropWhile (fun z => c.eq (c.key x.val) (c.key z.val))).map Node.val =
        (l.map Node.val).dropWhile (fun v => c.eq (c.key x.val) (c.key v)) := by
      intro l; rw [List.dropWhile_map]; rfl
    intro z hz
    rw [← h.1] at hz ⊢
    have hz' : z.val ∈ (s.dropWhile (fun z => c.eq (c.key x.val) (c.key z.val))).map Node.val := List.mem_map_of_mem hz
    rw [key, ← h.2, ← key] at hz'
    obtain ⟨w, hw, hwe⟩ := List.mem_map.1 hz'
    rw [← hwe]; exact hf.1 w hw

/-- the copy constructor makes an independent copy -/
theorem copyOf_ok {t : Table V F} {m : Mem} {fr : List ℕ} (h : Inv c t m fr) (gr : List ℕ) (hg1 : gr.Nodup) (hg2 : ∀ p ∈ gr, p ∈ m.live) :
    Inv c (copyOf t m).1 (copyOf t m).2 gr ∧ (copyOf t m).1.vals = t.vals ∧ (copyOf t m).1.mlf = t.mlf ∧ (Grp c t → Grp c (copyOf t m).1) := by
  have ht : t.buckets.take t.bsize = t.buckets := by rw [h.len, List.take_length]
  have e : copyOf t m = (⟨(copyChains t.buckets m).1, t.bsize, t.size, t.mlf⟩, (copyChains t.buckets m).2) := by
    unfold copyOf; rw [ht]
  obtain ⟨h1, h2, h3, h4, h5⟩ := copyChains_ok t.buckets m
  have hlen : (copyChains t.buckets m).1.length = t.buckets.length := by simpa using congrArg List.length h1
  have hvals : (copyChains t.buckets m).1.flatten.map Node.val = t.vals := by
    unfold Table.vals Table.nodes
    rw [List.map_flatten, h1, ← List.map_flatten]
  have hat : ∀ (i : ℕ) (f : List (Node V)), (copyChains t.buckets m).1[i]? = some f → ∃ g : List (Node V), t.buckets[i]? = some g ∧ g.map Node.val = f.map Node.val := by
    intro i f hf
    have hi := congrArg (fun l => l[i]?) h1
    simp only [List.getElem?_map] at hi
    rw [hf] at hi
    obtain ⟨g, hg, hge⟩ := Option.map_eq_some_iff.1 hi.symm
    exact ⟨g, hg, hge⟩
  rw [e]
  refine ⟨⟨h.len.trans hlen.symm, h.pos, ?_, ?_, ?_, ?_, ?_, ?_⟩, hvals, rfl, ?_⟩
  · show t.size = (copyChains t.buckets m).1.flatten.length
    rw [h.sz]
    have hl := congrArg List.length hvals
    unfold Table.vals at hl
    rw [List.length_map, List.length_map] at hl
    exact hl.symm
  · intro i f hf x hx
    obtain ⟨g, hg, hge⟩ := hat i f hf
    have : x.val ∈ g.map Node.val := by rw [hge]; exact List.mem_map_of_mem hx
    obtain ⟨y, hy, hye⟩ := List.mem_map.1 this
    show c.hash (c.key x.val) % t.bsize = i
    rw [← hye]; exact h.slot i g hg y hy
  · refine List.nodup_append.2 ⟨h2, hg1, ?_⟩
    intro p hp q hq
    have a1 := (h4 p hp).1
    have a2 := h.fresh q (hg2 q hq)
    omega
  · intro p hp
    refine h5.mem_iff.2 ?_
    rcases List.mem_append.1 hp with hp | hp
    · exact List.mem_append_left _ hp
    · exact List.mem_append_right _ (hg2 p hp)
  · intro p hp
    rcases List.mem_append.1 (h5.mem_iff.1 hp) with hp | hp
    · exact (h4 p hp).2
    · have := h.fresh p hp
      show p < (copyChains t.buckets m).2.next
      omega
  · refine h5.nodup_iff.2 (List.nodup_append.2 ⟨h2, h.nd, ?_⟩)
    intro p hp q hq
    have a1 := (h4 p hp).1
    have a2 := h.fresh q hq
    omega
  · intro hgr f hf
    obtain ⟨i, hi, rfl⟩ := List.getElem_of_mem hf
    obtain ⟨g, hg, hge⟩ := hat i _ (List.getElem?_eq_getElem hi)
    exact grouped_congr hge (hgr g (List.mem_of_getElem? hg))

/-- the copy assignment -/
theorem assign_ok {a b : Table V F} {m : Mem} (ha : Inv c a m (b.nodes.map Node.id)) (hb : Inv c b m (a.nodes.map Node.id)) :
    ∃ t' m', assign a m b = some (t', m') ∧ Inv c t' m' (b.nodes.map Node.id) ∧ t'.vals = b.vals ∧ (Grp c b → Grp c t') := by
  obtain ⟨h1, h2, h3, h4⟩ := copyOf_ok hb (a.nodes.map Node.id ++ b.nodes.map Node.id) ha.ids ha.live
  have hperm : ((copyOf b m).1.nodes.map Node.id ++ (a.nodes.map Node.id ++ b.nodes.map Node.id)).Perm
      (a.nodes.map Node.id ++ ((copyOf b m).1.nodes.map Node.id ++ b.nodes.map Node.id)) := List.perm_append_comm_assoc _ _ _
  have ha' : Inv c a (copyOf b m).2 ((copyOf b m).1.nodes.map Node.id ++ b.nodes.map Node.id) :=
    ha.reframe (hperm.nodup_iff.1 h1.ids) (fun p hp => h1.live p (hperm.mem_iff.2 hp)) h1.fresh h1.nd
  obtain ⟨t', m', g1, g2, g3, -⟩ := clear_ok ha'
  refine ⟨(copyOf b m).1, m', ?_, ?_, h2, h4⟩
  · show (clear a (copyOf b m).2).bind _ = _
    rw [g1]; rfl
  · refine h1.reframe ?_ ?_ g2.fresh g2.nd
    · have := g2.ids; rw [g3] at this; exact this
    · intro p hp
      refine g2.live p ?_
      rw [g3]; exact hp

end Verif.Hash
