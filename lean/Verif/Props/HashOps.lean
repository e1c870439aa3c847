import Verif.Props.HashBase

/-! # The hash table: inserting, rebuilding, finding, erasing -/

namespace Verif.Hash

variable {K V F : Type} {c : Cfg K V F}

/-- equal keys stand together: after the run of keys equal to the first, no more of them; and so on -/
def Grouped (c : Cfg K V F) : List (Node V) → Prop
  | [] => True
  | x :: r => (∀ y ∈ r.dropWhile (fun y => c.eq (c.key x.val) (c.key y.val)), c.eq (c.key x.val) (c.key y.val) = false) ∧ Grouped c r

/-- in every bucket equal keys stand together -/
def Grp (c : Cfg K V F) (t : Table V F) : Prop := ∀ f ∈ t.buckets, Grouped c f

theorem look_some {k : K} {f : List (Node V)} {y : Node V} (h : look c k f = some y) :
    ∃ a r, f = a ++ y :: r ∧ c.eq (c.key y.val) k = true ∧ ∀ z ∈ a, c.eq (c.key z.val) k = false := by
  induction f with
  | nil => cases h
  | cons x r ih =>
    unfold look at h
    by_cases hx : c.eq (c.key x.val) k = true
    · rw [if_pos hx] at h; cases h
      exact ⟨[], r, rfl, hx, by simp⟩
    · rw [if_neg hx] at h
      obtain ⟨a, r', h1, h2, h3⟩ := ih h
      refine ⟨x :: a, r', by rw [h1]; rfl, h2, ?_⟩
      intro z hz
      rcases List.mem_cons.1 hz with rfl | hz
      · simpa using hx
      · exact h3 z hz

theorem look_none {k : K} {f : List (Node V)} (h : look c k f = none) : ∀ z ∈ f, c.eq (c.key z.val) k = false := by
  induction f with
  | nil => simp
  | cons x r ih =>
    unfold look at h
    by_cases hx : c.eq (c.key x.val) k = true
    · rw [if_pos hx] at h; cases h
    · rw [if_neg hx] at h
      intro z hz
      rcases List.mem_cons.1 hz with rfl | hz
      · simpa using hx
      · exact ih h z hz

theorem behind_some {x : Node V} {f f' : List (Node V)} (h : behind c x f = some f') :
    ∃ a y r, f = a ++ y :: r ∧ f' = a ++ y :: x :: r ∧ c.eq (c.key y.val) (c.key x.val) = true ∧
      ∀ z ∈ a, c.eq (c.key z.val) (c.key x.val) = false := by
  induction f generalizing f' with
  | nil => cases h
  | cons y r ih =>
    unfold behind at h
    by_cases hx : c.eq (c.key y.val) (c.key x.val) = true
    · rw [if_pos hx] at h; cases h
      exact ⟨[], y, r, rfl, rfl, hx, by simp⟩
    · rw [if_neg hx] at h
      obtain ⟨g, hg, rfl⟩ := Option.map_eq_some_iff.1 h
      obtain ⟨a, z, r', h1, h2, h3, h4⟩ := ih hg
      refine ⟨y :: a, z, r', by rw [h1]; rfl, by rw [h2]; rfl, h3, ?_⟩
      intro w hw
      rcases List.mem_cons.1 hw with rfl | hw
      · simpa using hx
      · exact h4 w hw

theorem behind_none {x : Node V} {f : List (Node V)} (h : behind c x f = none) : ∀ z ∈ f, c.eq (c.key z.val) (c.key x.val) = false := by
  induction f with
  | nil => simp
  | cons y r ih =>
    unfold behind at h
    by_cases hx : c.eq (c.key y.val) (c.key x.val) = true
    · rw [if_pos hx] at h; cases h
    · rw [if_neg hx] at h
      intro z hz
      rcases List.mem_cons.1 hz with rfl | hz
      · simpa using hx
      · exact ih (by simpa using h) z hz

theorem behind_perm {x : Node V} {f f' : List (Node V)} (h : behind c x f = some f') : f'.Perm (x :: f) := by
  obtain ⟨a, y, r, rfl, rfl, -, -⟩ := behind_some h
  calc a ++ y :: x :: r = (a ++ [y]) ++ x :: r := by simp
    _ |>.Perm (x :: ((a ++ [y]) ++ r)) := List.perm_middle
    _ = x :: (a ++ y :: r) := by simp

theorem eq_congr (hc : Lawful c) {a b d : K} (h : c.eq a b = true) : c.eq a d = c.eq b d := by
  rcases hd : c.eq b d with _ | _
  · by_contra hn
    have h1 : c.eq a d = true := by simpa using hn
    rw [hc.trans _ _ _ (hc.symm _ _ h) h1] at hd; cases hd
  · exact hc.trans _ _ _ h hd

theorem eq_comm' (hc : Lawful c) (a b : K) : c.eq a b = c.eq b a := by
  rcases hd : c.eq b a with _ | _
  · by_contra hn
    rw [hc.symm _ _ (by simpa using hn)] at hd; cases hd
  · exact hc.symm _ _ hd

/-- no key equal to `k` can be hidden: a grouped chain with a new node at the head, its key not there -/
theorem grouped_head {x : Node V} {f : List (Node V)} (hc : Lawful c) (hg : Grouped c f) (hn : ∀ z ∈ f, c.eq (c.key z.val) (c.key x.val) = false) :
    Grouped c (x :: f) := by
  refine ⟨fun y hy => ?_, hg⟩
  rw [eq_comm' hc]
  exact hn y ((List.dropWhile_sublist _).mem hy)

theorem dropWhile_insert {α : Type} (p : α → Bool) (a r : List α) (y x : α) (hxy : p x = p y)
    (h : ∀ z ∈ (a ++ y :: r).dropWhile p, p z = false) : ∀ z ∈ (a ++ y :: x :: r).dropWhile p, p z = false := by
  induction a with
  | nil =>
    intro z hz
    simp only [List.nil_append, List.dropWhile_cons] at h hz
    by_cases hy : p y = true
    · rw [if_pos hy] at h hz
      rw [if_pos (hxy.trans hy)] at hz
      exact h z hz
    · rw [if_neg hy] at h hz
      rcases List.mem_cons.1 hz with rfl | hz
      · simpa using hy
      rcases List.mem_cons.1 hz with rfl | hz
      · rw [hxy]; simpa using hy
      · exact h z (List.mem_cons_of_mem _ hz)
  | cons w a ih =>
    intro z hz
    simp only [List.cons_append, List.dropWhile_cons] at h hz
    by_cases hy : p w = true
    · rw [if_pos hy] at h hz
      exact ih h z hz
    · rw [if_neg hy] at h hz
      have hmem : z = w ∨ z = x ∨ z ∈ a ++ y :: r := by
        rcases List.mem_cons.1 hz with rfl | hz
        · exact Or.inl rfl
        · rcases List.mem_append.1 hz with hz | hz
          · exact Or.inr (Or.inr (List.mem_append_left _ hz))
          · rcases List.mem_cons.1 hz with rfl | hz
            · exact Or.inr (Or.inr (by simp))
            · rcases List.mem_cons.1 hz with rfl | hz
              · exact Or.inr (Or.inl rfl)
              · exact Or.inr (Or.inr (by simp [hz]))
      rcases hmem with rfl | rfl | hz
      · simpa using hy
      · rw [hxy]; exact h y (by simp)
      · exact h z (List.mem_cons_of_mem _ hz)

theorem grouped_behind {x : Node V} {f f' : List (Node V)} (hc : Lawful c) (hg : Grouped c f) (h : behind c x f = some f') : Grouped c f' := by
  obtain ⟨a, y, r, rfl, rfl, hxy, -⟩ := behind_some h
  clear h
  induction a with
  | nil =>
    obtain ⟨h1, h2⟩ := hg
    refine ⟨?_, ?_, h2⟩
    · intro z hz
      rw [List.dropWhile_cons, if_pos hxy] at hz
      exact h1 z hz
    · intro z hz
      have e : (fun w : Node V => c.eq (c.key x.val) (c.key w.val)) = (fun w => c.eq (c.key y.val) (c.key w.val)) :=
        funext fun w => eq_congr hc (hc.symm _ _ hxy)
      rw [e] at hz
      rw [eq_congr hc (hc.symm _ _ hxy)]
      exact h1 z hz
  | cons w a ih =>
    obtain ⟨h1, h2⟩ := hg
    refine ⟨?_, ih h2⟩
    refine dropWhile_insert (fun z => c.eq (c.key w.val) (c.key z.val)) a r y x ?_ h1
    show c.eq (c.key w.val) (c.key x.val) = c.eq (c.key w.val) (c.key y.val)
    rw [eq_comm' hc, eq_congr hc (hc.symm _ _ hxy), eq_comm' hc]

theorem grp_set {t : Table V F} {i : ℕ} {f' : List (Node V)} {s : ℕ} (h : Grp c t) (hf : Grouped c f') :
    Grp c { t with buckets := t.buckets.set i f', size := s } := by
  intro f hfm
  rcases List.mem_or_eq_of_mem_set hfm with hm | rfl
  · exact h f hm
  · exact hf

/-- `place` puts a new node into its bucket -/
theorem place_ok (hc : Lawful c) {t : Table V F} {m : Mem} {fr : List ℕ} (h : Inv c t m fr) (v : V) :
    ∃ bs, place c t.buckets t.bsize (m.create v).1 = some bs ∧ Inv c { t with buckets := bs, size := t.size + 1 } (m.create v).2 fr ∧
      (Table.nodes { t with buckets := bs, size := t.size + 1 }).Perm (⟨m.next, v⟩ :: t.nodes) ∧
      (Grp c t → Grp c { t with buckets := bs, size := t.size + 1 }) := by
  obtain ⟨f, rest, hh, hb, hn, hset, hf, -⟩ := h.bucket hc (c.key v)
  rcases hbe : behind c (m.create v).1 f with _ | f'
  · obtain ⟨h1, h2⟩ := h.add v hb hn (hset ((m.create v).1 :: f)) hf rfl (List.Perm.refl _)
    refine ⟨t.buckets.set (c.hash (c.key v) % t.bsize) ((m.create v).1 :: f), ?_, h1, h2, fun hg => grp_set hg ?_⟩
    · show (hashIn c (c.key v) t.bsize).bind _ = _
      rw [hh]
      show (t.buckets[c.hash (c.key v) % t.bsize]?).bind _ = _
      rw [hb]
      show (match behind c (m.create v).1 f with | some f' => _ | none => _) = _
      rw [hbe]; rfl
    · exact grouped_head hc (hg f (List.mem_of_getElem? hb)) (behind_none hbe)
  · obtain ⟨h1, h2⟩ := h.add v hb hn (hset f') hf rfl (behind_perm hbe)
    refine ⟨t.buckets.set (c.hash (c.key v) % t.bsize) f', ?_, h1, h2, fun hg => grp_set hg ?_⟩
    · show (hashIn c (c.key v) t.bsize).bind _ = _
      rw [hh]
      show (t.buckets[c.hash (c.key v) % t.bsize]?).bind _ = _
      rw [hb]
      show (match behind c (m.create v).1 f with | some f' => _ | none => _) = _
      rw [hbe]; rfl
    · exact grouped_behind hc (hg f (List.mem_of_getElem? hb)) hbe

theorem placeAll_ok (hc : Lawful c) (l : List (Node V)) {t : Table V F} {m : Mem} {fr : List ℕ} (h : Inv c t m fr) (hg : Grp c t) :
    ∃ bs m', placeAll c t.bsize l t.buckets m = some (bs, m') ∧ Inv c { t with buckets := bs, size := t.size + l.length } m' fr ∧
      ((Table.nodes { t with buckets := bs, size := t.size + l.length }).map Node.val).Perm (l.map Node.val ++ t.vals) ∧
      Grp c { t with buckets := bs, size := t.size + l.length } ∧ m'.live.length = m.live.length + l.length := by
  induction l generalizing t m with
  | nil => exact ⟨t.buckets, m, rfl, h, List.Perm.refl _, hg, rfl⟩
  | cons y r ih =>
    obtain ⟨bs, h1, h2, h3, h4⟩ := place_ok hc h y.val
    obtain ⟨bs', m', g1, g2, g3, g4, g5⟩ := ih h2 (h4 hg)
    have e : t.size + 1 + r.length = t.size + (y :: r).length := by simp; omega
    refine ⟨bs', m', ?_, ?_, ?_, ?_, ?_⟩
    · show (place c t.buckets t.bsize (m.create y.val).1).bind _ = _
      rw [h1]; exact g1
    · rw [← e]; exact g2
    · rw [← e]
      refine g3.trans ?_
      have := (h3.map Node.val).append_left (r.map Node.val)
      exact this.trans List.perm_middle
    · rw [← e]; exact g4
    · rw [g5]; simp [Mem.create]; omega

/-- what rebuilding keeps -/
structure Same (c : Cfg K V F) (t t' : Table V F) (m' : Mem) (fr : List ℕ) : Prop where
  inv : Inv c t' m' fr
  vals : t'.vals.Perm t.vals
  mlf : t'.mlf = t.mlf
  grp : Grp c t → Grp c t'

theorem replaceBucket_ok (hc : Lawful c) {t : Table V F} {m : Mem} {fr : List ℕ} (h : Inv c t m fr) (n : ℕ) (hn : 0 < n) :
    ∃ t' m', replaceBucket c t m n = some (t', m') ∧ Same c t t' m' fr ∧ t'.bsize = n ∧ m'.live.length = m.live.length + t.size := by
  by_cases hz : t.size = 0
  · have hnil : t.nodes = [] := List.length_eq_zero_iff.1 (by rw [← h.sz, hz])
    have hi := inv_empty (V := V) (c := c) n hn t.mlf (m := m) (fr := fr) (List.Nodup.of_append_right h.ids)
      (fun p hp => h.live p (List.mem_append_right _ hp)) h.fresh h.nd
    refine ⟨⟨List.replicate n [], n, 0, t.mlf⟩, m, ?_, ⟨hi, ?_, rfl, ?_⟩, rfl, by omega⟩
    · show (if t.size ≠ 0 then placeAll c n (t.buckets.take t.bsize).flatten (List.replicate n []) m else some (List.replicate n [], m)).bind _ = _
      rw [if_neg (show ¬ (t.size ≠ 0) by simpa using hz)]
      show some (({ t with buckets := List.replicate n [], bsize := (List.replicate n []).length } : Table V F), m) = _
      rw [List.length_replicate, hz]
    · unfold Table.vals; rw [hnil]; unfold Table.nodes; simp
    · intro _ f hf
      rw [(List.mem_replicate.1 hf).2]; trivial
  · have hi := inv_empty (V := V) (c := c) n hn t.mlf (m := m) (fr := t.nodes.map Node.id ++ fr) h.ids h.live h.fresh h.nd
    have hg : Grp c (⟨List.replicate n [], n, 0, t.mlf⟩ : Table V F) := by
      intro f hf; rw [(List.mem_replicate.1 hf).2]; trivial
    obtain ⟨bs, m', g1, g2, g3, g4, g5⟩ := placeAll_ok hc t.nodes hi hg
    have hlen : n = bs.length := g2.len
    have hsz : (0 : ℕ) + t.nodes.length = t.size := by rw [h.sz]; omega
    simp only [hsz] at g2 g3 g4
    refine ⟨⟨bs, n, t.size, t.mlf⟩, m', ?_, ⟨g2.forget, ?_, rfl, fun _ => g4⟩, rfl, by rw [g5, ← hsz]; omega⟩
    · show (if t.size ≠ 0 then placeAll c n (t.buckets.take t.bsize).flatten (List.replicate n []) m else some (List.replicate n [], m)).bind _ = _
      rw [if_pos (show t.size ≠ 0 from hz)]
      have ht : (t.buckets.take t.bsize).flatten = t.nodes := by rw [h.len, List.take_length]; rfl
      rw [ht]
      show (placeAll c n t.nodes (List.replicate n []) m).bind _ = _
      rw [g1]
      show some (({ t with buckets := bs, bsize := bs.length } : Table V F), m') = _
      rw [← hlen]
    · refine g3.trans ?_
      have : (⟨List.replicate n [], n, 0, t.mlf⟩ : Table V F).vals = [] := by
        unfold Table.vals Table.nodes; simp
      rw [this, List.append_nil]; exact List.Perm.refl _

theorem Same.rfl' {t : Table V F} {m : Mem} {fr : List ℕ} (h : Inv c t m fr) : Same c t t m fr := ⟨h, List.Perm.refl _, rfl, id⟩

theorem rehash_ok (hc : Lawful c) {t : Table V F} {m : Mem} {fr : List ℕ} (h : Inv c t m fr) (n : ℕ) :
    ∃ t' m', rehash c t m n = some (t', m') ∧ Same c t t' m' fr := by
  obtain ⟨p, h1, h2, -, -, -⟩ := nextPrime_pos n
  obtain ⟨t', m', g1, g2, -, -⟩ := replaceBucket_ok hc h p (by omega)
  by_cases hp : p > t.bsize
  · refine ⟨t', m', ?_, g2⟩
    show (nextPrime n).bind _ = _
    rw [h1]
    show (if p > t.bsize then _ else _) = _
    rw [if_pos hp]; exact g1
  by_cases hsp : c.sparse t.size p t.bsize t.mlf = true
  · refine ⟨t', m', ?_, g2⟩
    show (nextPrime n).bind _ = _
    rw [h1]
    show (if p > t.bsize then _ else if c.sparse t.size p t.bsize t.mlf = true then _ else _) = _
    rw [if_neg hp, if_pos hsp]; exact g1
  · refine ⟨t, m, ?_, Same.rfl' h⟩
    show (nextPrime n).bind _ = _
    rw [h1]
    show (if p > t.bsize then _ else if c.sparse t.size p t.bsize t.mlf = true then _ else _) = _
    rw [if_neg hp, if_neg hsp]; rfl

theorem rehashIfNeed_ok (hc : Lawful c) {t : Table V F} {m : Mem} {fr : List ℕ} (h : Inv c t m fr) (n : ℕ) :
    ∃ t' m', rehashIfNeed c t m n = some (t', m') ∧ Same c t t' m' fr := by
  by_cases ho : c.over (t.size + n) t.bsize t.mlf = true
  · obtain ⟨t', m', g1, g2⟩ := rehash_ok hc h (t.size + n)
    exact ⟨t', m', by unfold rehashIfNeed; rw [if_pos ho]; exact g1, g2⟩
  · exact ⟨t, m, by unfold rehashIfNeed; rw [if_neg ho], Same.rfl' h⟩

end Verif.Hash
