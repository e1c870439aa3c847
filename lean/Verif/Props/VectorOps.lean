import Verif.Props.VectorLemmas
import Mathlib.Data.List.TakeDrop

/-! # Each operation of `vector` on a represented sequence (for C44) -/

namespace Verif.Vector

variable {α : Type}

/-- the vector holds the sequence `l` -/
def Rep (a : Vec α) (l : List α) : Prop :=
  ∃ rest, a.mem = L l ++ rest ∧ a.size = l.length ∧ l.length ≤ a.cap ∧ a.cap ≤ a.mem.length

/-- the argument denotes the value `v`: a separate object, or — for trivially copyable element types — an element of the sequence -/
def Arg (triv : Bool) (l : List α) (value : Ref α) (v : α) : Prop :=
  value = .copy v ∨ triv = true ∧ ∃ i, value = .elem i ∧ l[i]? = some v

theorem rd_L {l : List α} {i : ℕ} {v : α} (h : l[i]? = some v) (rest : Mem α) : rd (L l ++ rest) i = .ok v := by
  have hi : i < l.length := by
    rcases Nat.lt_or_ge i l.length with h' | h'
    · exact h'
    · rw [List.getElem?_eq_none h'] at h; simp at h
  unfold rd
  rw [List.getElem?_append_left (by simpa using hi)]
  simp [L, h]

theorem get_arg {triv : Bool} {l : List α} {value : Ref α} {v : α} (h : Arg triv l value v) (rest : Mem α) :
    value.get (L l ++ rest) = .ok v := by
  rcases h with rfl | ⟨_, i, rfl, h⟩
  · rfl
  · exact rd_L h rest

theorem newCap_ok (mx old add : ℕ) : (newCap mx old add = .error .length ∧ mx < old + add) ∨ ∃ c, newCap mx old add = .ok c ∧ old + add ≤ c := by
  unfold newCap
  split_ifs
  · left; exact ⟨rfl, by omega⟩
  all_goals right; refine ⟨_, rfl, ?_⟩; omega

theorem split_at {l : List α} {pos : ℕ} (h : pos ≤ l.length) : ∃ p q, l = p ++ q ∧ p.length = pos :=
  ⟨l.take pos, l.drop pos, (List.take_append_drop ..).symm, by simp; omega⟩

theorem alloc_split (a b c n : ℕ) (h : a + b + c ≤ n) : ∃ r, (allocate n : Mem α) =
    List.replicate a .raw ++ (List.replicate b .raw ++ (List.replicate c .raw ++ List.replicate r .raw)) := by
  refine ⟨n - (a + b + c), ?_⟩
  rw [← List.replicate_add, ← List.replicate_add, ← List.replicate_add, allocate]
  congr 1; omega

theorem rep_empty : Rep (empty16 : Vec α) [] := ⟨allocate 16, rfl, rfl, by simp [empty16], by simp [empty16, allocate]⟩
theorem rep_null : Rep (null : Vec α) [] := ⟨[], rfl, rfl, by simp [null], by simp [null]⟩

theorem rep_contents {a : Vec α} {l : List α} (h : Rep a l) : contents a.size 0 a.mem = .ok l := by
  obtain ⟨rest, h1, h2, _, _⟩ := h
  rw [h1, h2]
  exact contents_ok l [] rest _ _ rfl rfl

theorem rep_destroy {a : Vec α} {l : List α} (h : Rep a l) : ∃ m, destroyN a.size 0 a.mem = .ok m := by
  obtain ⟨rest, h1, h2, _, _⟩ := h
  rw [h1, h2]
  exact ⟨_, destroyN_ok (L l) [] rest _ _ (by simp) rfl (noRaw_L l)⟩

theorem fillInit_ok (n : ℕ) (v : α) : ∃ a, fillInit n v = .ok a ∧ Rep a (List.replicate n v) := by
  obtain ⟨r, hr⟩ := alloc_split (α := α) n 0 0 (max 16 n) (by omega)
  have hl := congrArg List.length hr
  refine ⟨?_, ?_, ?_⟩
  rotate_left
  · simp only [fillInit]
    rw [hr]
    have := uninitFill_ok v (List.replicate n .raw) [] (List.replicate 0 .raw ++ (List.replicate 0 .raw ++ List.replicate r .raw)) n 0 (by simp) rfl
    rw [List.nil_append] at this
    rw [this]
    rfl
  · refine ⟨_, rfl, by simp, by simp; omega, ?_⟩
    simp [allocate] at hl ⊢
    omega

theorem rangeInit_ok (l : List α) : ∃ a, rangeInit l = .ok a ∧ Rep a l := by
  obtain ⟨r, hr⟩ := alloc_split (α := α) l.length 0 0 (max l.length 16) (by omega)
  have hl := congrArg List.length hr
  refine ⟨?_, ?_, ?_⟩
  rotate_left
  · simp only [rangeInit]
    rw [hr]
    have := uninitCopy_ok l (List.replicate l.length .raw) [] (List.replicate 0 .raw ++ (List.replicate 0 .raw ++ List.replicate r .raw)) 0 (by simp) rfl
    rw [List.nil_append] at this
    rw [this]
    rfl
  · refine ⟨_, rfl, by simp, by simp; omega, ?_⟩
    simp [allocate] at hl ⊢
    omega

/-- overwrite with `l` when it fits -/
theorem over_ok {a : Vec α} {x : List α} (h : Rep a x) (l : List α) (hl : l.length ≤ x.length) :
    ∃ m, (copyOver l 0 a.mem >>= destroyN (a.size - l.length) l.length) = .ok (L l ++ m) ∧ (L l ++ m).length = a.mem.length := by
  obtain ⟨rest, h1, h2, h3, h4⟩ := h
  obtain ⟨p, q, rfl, hp⟩ := split_at hl
  have e1 := copyOver_ok l (L p) [] (L q ++ rest) 0 (by simp [hp]) rfl (noRaw_L p)
  have e2 := destroyN_ok (L q) (L l) rest (a.size - l.length) l.length (by simp [h2, hp]) (by simp) (noRaw_L q)
  refine ⟨?_, ?_, ?_⟩
  rotate_left
  · rw [h1, L_append, List.append_assoc]
    rw [List.nil_append] at e1
    rw [e1, ok_bind, List.nil_append, ← List.append_assoc, e2, List.append_assoc]
  · rw [h1]; simp [h2, hp]

theorem extend_ok {a : Vec α} {x : List α} (h : Rep a x) (l : List α) (hl : x.length < l.length) (hc : l.length ≤ a.cap) :
    ∃ m, (copyOver (l.take a.size) 0 a.mem >>= uninitCopy (l.drop a.size) a.size) = .ok (L l ++ m) ∧ (L l ++ m).length = a.mem.length := by
  obtain ⟨rest, h1, h2, h3, h4⟩ := h
  rw [h2]
  have ht : (l.take x.length).length = x.length := by simp; omega
  have hd : (l.drop x.length).length = l.length - x.length := by simp
  rw [h1] at h4
  simp at h4
  obtain ⟨r1, r2, hr, hr1⟩ := split_at (l := rest) (pos := l.length - x.length) (by omega)
  have e1 := copyOver_ok (l.take x.length) (L x) [] rest 0 (by simp; omega) rfl (noRaw_L x)
  have e2 := uninitCopy_ok (l.drop x.length) r1 (L (l.take x.length)) r2 x.length (by rw [hr1, hd]) (by rw [L_length, ht])
  refine ⟨r2, ?_, ?_⟩
  · rw [h1]
    rw [List.nil_append] at e1
    rw [e1, ok_bind, List.nil_append, hr, ← List.append_assoc, e2, ← L_append, List.take_append_drop]
  · rw [h1, hr]; simp [hr1]; omega

theorem copyAssign_ok {a b : Vec α} {x l : List α} (ha : Rep a x) (hb : Rep b l) : ∃ a', copyAssign a b = .ok a' ∧ Rep a' l := by
  unfold copyAssign
  rw [rep_contents hb, ok_bind]
  have ha0 := ha
  obtain ⟨rest, h1, h2, h3, h4⟩ := ha0
  split_ifs with c1 c2
  · obtain ⟨t, e1, r1⟩ := rangeInit_ok l
    obtain ⟨m, e2⟩ := rep_destroy ha
    exact ⟨t, by rw [e1, ok_bind, e2]; rfl, r1⟩
  · obtain ⟨m, e, hm⟩ := over_ok ha l (by omega)
    refine ⟨⟨L l ++ m, l.length, a.cap⟩, ?_, ⟨m, rfl, rfl, by simp; omega, by simp only [hm]; exact h4⟩⟩
    rcases hc : copyOver l 0 a.mem with e' | m'
    · rw [hc] at e; simp at e
    · rw [hc, ok_bind] at e; rw [ok_bind, e]; rfl
  · obtain ⟨m, e, hm⟩ := extend_ok ha l (by omega) (by omega)
    refine ⟨⟨L l ++ m, l.length, l.length⟩, ?_, ⟨m, rfl, rfl, by simp, by simp⟩⟩
    rcases hc : copyOver (l.take a.size) 0 a.mem with e' | m'
    · rw [hc] at e; simp at e
    · rw [hc, ok_bind] at e; rw [ok_bind, e]; rfl

theorem rangeAssign_ok {a : Vec α} {x : List α} (ha : Rep a x) (l : List α) : ∃ a', rangeAssign l a = .ok a' ∧ Rep a' l := by
  unfold rangeAssign
  have ha0 := ha
  obtain ⟨rest, h1, h2, h3, h4⟩ := ha0
  split_ifs with c1 c2
  · obtain ⟨t, e1, r1⟩ := rangeInit_ok l
    obtain ⟨m, e2⟩ := rep_destroy ha
    exact ⟨t, by rw [e1, ok_bind, e2]; rfl, r1⟩
  · obtain ⟨m, e, hm⟩ := over_ok ha l (by omega)
    refine ⟨⟨L l ++ m, l.length, a.cap⟩, ?_, ⟨m, rfl, rfl, by simp; omega, by simp only [hm]; exact h4⟩⟩
    rcases hc : copyOver l 0 a.mem with e' | m'
    · rw [hc] at e; simp at e
    · rw [hc, ok_bind] at e; rw [ok_bind, e]; rfl
  · obtain ⟨m, e, hm⟩ := extend_ok ha l (by omega) (by omega)
    refine ⟨⟨L l ++ m, l.length, a.cap⟩, ?_, ⟨m, rfl, rfl, by simp; omega, by simp only [hm]; exact h4⟩⟩
    rcases hc : copyOver (l.take a.size) 0 a.mem with e' | m'
    · rw [hc] at e; simp at e
    · rw [hc, ok_bind] at e; rw [ok_bind, e]; rfl

theorem moveAssign_ok {a b : Vec α} {x l : List α} (ha : Rep a x) (hb : Rep b l) : ∃ a', moveAssign a b = .ok a' ∧ Rep a' l := by
  obtain ⟨m, e2⟩ := rep_destroy ha
  exact ⟨b, by unfold moveAssign; rw [e2]; rfl, hb⟩

/-- moving all elements to a fresh block -/
theorem relocate_ok (triv : Bool) {a : Vec α} {l : List α} (h : Rep a l) (n : ℕ) (hn : l.length ≤ n) :
    ∃ m q, uninitMoveTo triv a.size 0 0 a.mem (allocate n) = .ok (m, L l ++ q) ∧ (L l ++ q).length = n := by
  obtain ⟨rest, h1, h2, h3, h4⟩ := h
  obtain ⟨r, hr⟩ := alloc_split (α := α) l.length 0 0 n (by omega)
  obtain ⟨z, e, _⟩ := uninitMoveTo_ok triv l [] rest [] (List.replicate l.length .raw)
    (List.replicate 0 .raw ++ (List.replicate 0 .raw ++ List.replicate r .raw)) l.length 0 0 rfl (by simp) rfl rfl
  have hl := congrArg List.length hr
  refine ⟨[] ++ z ++ rest, ?_, ?_, ?_⟩
  rotate_left
  · rw [h1, h2, hr]
    simp only [List.nil_append] at e ⊢
    exact e
  · simp [allocate] at hl ⊢; omega

theorem reserve_ok (triv : Bool) (mx n : ℕ) {a : Vec α} {l : List α} (h : Rep a l) :
    (reserve triv mx n a = .error .length ∧ mx < n) ∨ ∃ a', reserve triv mx n a = .ok a' ∧ Rep a' l ∧ n ≤ a'.cap := by
  unfold reserve
  split_ifs with c1 c2
  · exact Or.inl ⟨rfl, c2⟩
  · obtain ⟨m, q, e, hq⟩ := relocate_ok triv h n (by obtain ⟨_, _, _, h3, _⟩ := h; omega)
    obtain ⟨_, _, h2, _, _⟩ := h
    exact Or.inr ⟨⟨L l ++ q, a.size, n⟩, by rw [e]; rfl, ⟨q, rfl, h2, by simp at hq ⊢; omega, by simp only [hq]; exact Nat.le_refl _⟩, Nat.le_refl _⟩
  · exact Or.inr ⟨a, rfl, h, by omega⟩

theorem shrink_ok (triv : Bool) {a : Vec α} {l : List α} (h : Rep a l) : ∃ a', shrink triv a = .ok a' ∧ Rep a' l ∧ a'.cap = l.length := by
  have h0 := h
  obtain ⟨_, _, h2, h3, _⟩ := h0
  unfold shrink
  split_ifs with c1
  · obtain ⟨m, q, e, hq⟩ := relocate_ok triv h a.size (by omega)
    exact ⟨⟨L l ++ q, a.size, a.size⟩, by rw [e]; rfl, ⟨q, rfl, h2, by simp at hq ⊢; omega, by simp only [hq]; exact Nat.le_refl _⟩, h2⟩
  · exact ⟨a, rfl, h, by omega⟩

/-- moving the first half to a fresh block -/
theorem half1 (triv : Bool) (p : List α) (t : Mem α) (n k r : ℕ) : ∃ z, uninitMoveTo triv p.length 0 0 (L p ++ t)
    (List.replicate p.length .raw ++ (List.replicate n .raw ++ (List.replicate k .raw ++ List.replicate r .raw))) =
    .ok (z ++ t, L p ++ (List.replicate n .raw ++ (List.replicate k .raw ++ List.replicate r .raw))) ∧
    z.length = p.length ∧ NoRaw z ∧ (triv = true → z = L p) := by
  obtain ⟨z, e, h1, h2, h3⟩ := uninitMoveTo_ok triv p [] t [] (List.replicate p.length .raw)
    (List.replicate n .raw ++ (List.replicate k .raw ++ List.replicate r .raw)) p.length 0 0 rfl (by simp) rfl rfl
  exact ⟨z, by simpa using e, h1, h2, h3⟩

/-- moving the second half to a fresh block, behind the first half and the inserted elements -/
theorem half2 (triv : Bool) (p w q : List α) (z rest : Mem α) (r s d k : ℕ) (hz : z.length = p.length) (hs : s = p.length)
    (hd : d = p.length + w.length) (hk : k = q.length) : ∃ z', uninitMoveTo triv k s d (z ++ (L q ++ rest))
    (L p ++ (L w ++ (List.replicate q.length .raw ++ List.replicate r .raw))) =
    .ok (z ++ z' ++ rest, L (p ++ w ++ q) ++ List.replicate r .raw) ∧ z'.length = q.length ∧ NoRaw z' := by
  obtain ⟨z', e, h1, h2, h3⟩ := uninitMoveTo_ok triv q z rest (L (p ++ w)) (List.replicate q.length .raw) (List.replicate r .raw) k s d
    hk.symm (by simp [hk]) (by rw [hz, hs]) (by rw [hd]; simp)
  exact ⟨z', by simpa using e, by rw [h1, hk], h2⟩

theorem reallocInsert_ok (triv : Bool) (mx : ℕ) (value : Ref α) (v : α) {a : Vec α} (p q : List α) (h : Rep a (p ++ q))
    (hv : Arg triv (p ++ q) value v) :
    (reallocInsert triv mx p.length value a = .error .length ∧ mx < a.cap + 1) ∨
    ∃ a', reallocInsert triv mx p.length value a = .ok a' ∧ Rep a' (p ++ v :: q) := by
  obtain ⟨rest, h1, h2, h3, h4⟩ := h
  unfold reallocInsert
  rcases newCap_ok mx a.cap 1 with ⟨e, he⟩ | ⟨c, e, hc⟩
  · left; rw [e]; exact ⟨rfl, he⟩
  · right
    rw [e, ok_bind]
    rw [List.length_append] at h2 h3
    obtain ⟨r, hr⟩ := alloc_split (α := α) p.length 1 q.length c (by omega)
    have hl := congrArg List.length hr
    obtain ⟨z, e1, z1, z2, z3⟩ := half1 triv p (L q ++ rest) 1 q.length r
    obtain ⟨z', e2, y1, y2⟩ := half2 triv p [v] q z rest r p.length (p.length + 1) (a.size - p.length) z1 rfl rfl (by omega)
    have hg : value.get (z ++ (L q ++ rest)) = .ok v := by
      rcases hv with rfl | ⟨ht, hv⟩
      · rfl
      · rw [z3 ht, ← List.append_assoc, ← L_append]
        exact get_arg (triv := triv) (Or.inr ⟨ht, hv⟩) rest
    have e3 := construct_at (L p) .raw v (List.replicate q.length .raw ++ List.replicate r .raw) p.length (by simp)
    have e4 := destroyN_ok (z ++ z') [] rest a.size 0 (by simp [z1, y1, h2]) rfl (noRaw_append.mpr ⟨z2, y2⟩)
    refine ⟨⟨L (p ++ [v] ++ q) ++ List.replicate r .raw, a.size + 1, c⟩, ?_, ⟨List.replicate r .raw, by simp, by simp [h2]; omega, by simp; omega, ?_⟩⟩
    · rw [h1, hr, L_append, List.append_assoc, e1]
      simp only [ok_bind]
      rw [hg, ok_bind]
      simp only [List.replicate_one, List.singleton_append]
      rw [e3, ok_bind]
      simp only [L_cons, L_nil, List.singleton_append] at e2
      rw [e2]
      simp only [ok_bind]
      rw [List.nil_append] at e4
      rw [e4]; rfl
    · simp [allocate] at hl ⊢; omega

theorem append_ok {a : Vec α} {l : List α} (h : Rep a l) (hc : a.size ≠ a.cap) (v : α) :
    ∃ m, construct a.mem a.size v = .ok m ∧ Rep ⟨m, a.size + 1, a.cap⟩ (l ++ [v]) := by
  obtain ⟨rest, h1, h2, h3, h4⟩ := h
  rw [h1] at h4
  simp at h4
  obtain ⟨c, rest, rfl⟩ : ∃ c r, rest = c :: r := by
    cases rest with
    | nil => simp at h4; omega
    | cons c r => exact ⟨c, r, rfl⟩
  refine ⟨L l ++ .live v :: rest, ?_, rest, by simp, by simp [h2], by simp; omega, by simp at h4 ⊢; omega⟩
  rw [h1]
  exact construct_at _ _ _ _ _ (by simp [h2])

theorem pushBack_ok (triv : Bool) (mx : ℕ) (value : Ref α) (v : α) {a : Vec α} {l : List α} (h : Rep a l) (hv : Arg triv l value v) :
    (pushBack triv mx value a = .error .length ∧ mx < a.cap + 1) ∨ ∃ a', pushBack triv mx value a = .ok a' ∧ Rep a' (l ++ [v]) := by
  unfold pushBack
  by_cases hc : a.size ≠ a.cap
  · right
    rw [if_pos hc]
    obtain ⟨m, e, r⟩ := append_ok h hc v
    have h0 := h
    obtain ⟨rest, h1, _⟩ := h0
    refine ⟨_, ?_, r⟩
    rw [show value.get a.mem = .ok v by rw [h1]; exact get_arg hv rest, ok_bind, e]; rfl
  · rw [if_neg hc]
    have h0 := h
    obtain ⟨_, _, h2, _⟩ := h0
    have := reallocInsert_ok triv mx value v l [] (by simpa using h) (by simpa using hv)
    rw [h2]; simpa using this

theorem popBack_ok {a : Vec α} {l : List α} {v : α} (h : Rep a (l ++ [v])) : ∃ a', popBack a = .ok a' ∧ Rep a' l := by
  obtain ⟨rest, h1, h2, h3, h4⟩ := h
  simp at h2 h3
  unfold popBack
  rw [if_neg (by omega), h1]
  have := destroy_at (L l) (.live v) rest (a.size - 1) (by simp [h2]) (by simp)
  rw [show L (l ++ [v]) ++ rest = L l ++ .live v :: rest by simp, this]
  rw [h1] at h4
  simp at h4
  exact ⟨_, rfl, ⟨_, rfl, by simp [h2], by simp; omega, by simp; omega⟩⟩

/-- the in-place branch of `insert` and `emplace`: the last element is copied behind the end, the others shift up by one -/
theorem shift_ok {a : Vec α} (p q : List α) (x : α) (h : Rep a (p ++ (q ++ [x]))) (hc : a.size ≠ a.cap) (v : α) :
    ∃ m m2 m3 r, rd a.mem (a.size - 1) = .ok x ∧ construct a.mem a.size x = .ok m ∧ m = L (p ++ (q ++ [x])) ++ r ∧
      copyBackward p.length (p.length + 1) (a.size - 1 - p.length) m = .ok m2 ∧ assign m2 p.length v = .ok m3 ∧
      Rep ⟨m3, a.size + 1, a.cap⟩ (p ++ v :: (q ++ [x])) := by
  obtain ⟨rest, h1, h2, h3, h4⟩ := h
  simp at h2 h3
  rw [h1] at h4
  simp at h4
  obtain ⟨c, rest, rfl⟩ : ∃ c r, rest = c :: r := by
    cases rest with
    | nil => simp at h4; omega
    | cons c r => exact ⟨c, r, rfl⟩
  have e1 := rd_at (L (p ++ q)) x (c :: rest) (a.size - 1) (by simp [h2])
  have e2 := construct_at (L (p ++ (q ++ [x]))) c x rest a.size (by simp [h2])
  obtain ⟨z, e3, z1, z2⟩ := moveBackward_ok true (L p) 1 p.length (p.length + 1) (by simp) (by simp) (a.size - 1 - p.length) q [.live x]
    (.live x :: rest) (by omega) rfl (by intro d hd; simp at hd; subst hd; simp)
  obtain ⟨d, rfl⟩ := List.length_eq_one_iff.mp z1
  have e4 := assign_at (L p) d v (L q ++ .live x :: rest) p.length (by simp) (z2 d (by simp))
  refine ⟨_, _, _, _, ?_, by rw [h1]; exact e2, rfl, ?_, e4, ?_⟩
  · rw [h1]; simpa using e1
  · rw [copyBackward_eq]; simpa using e3
  · exact ⟨rest, by simp, by simp [h2]; omega, by simp; omega, by simp at h4 ⊢; omega⟩

theorem insert_ok (triv : Bool) (mx : ℕ) (value : Ref α) (v : α) {a : Vec α} (p q : List α) (h : Rep a (p ++ q)) (hv : Arg triv (p ++ q) value v) :
    (insert triv mx p.length value a = .error .length ∧ mx < a.cap + 1) ∨
    ∃ a', insert triv mx p.length value a = .ok (a', p.length) ∧ Rep a' (p ++ v :: q) := by
  have h0 := h
  obtain ⟨rest, h1, h2, _⟩ := h0
  rw [List.length_append] at h2
  have hg : value.get a.mem = .ok v := by rw [h1]; exact get_arg hv rest
  unfold insert
  split_ifs with c1 c2
  · right
    obtain rfl : q = [] := List.length_eq_zero_iff.mp (by omega)
    obtain ⟨m, e, r⟩ := append_ok h c1.1 v
    exact ⟨_, by rw [hg, ok_bind, e]; rfl, by simpa using r⟩
  · right
    obtain ⟨q, x, rfl⟩ : ∃ t x, q = t ++ [x] := by
      have : q ≠ [] := by rintro rfl; simp at h2; exact c1 ⟨c2, h2.symm⟩
      exact ⟨q.dropLast, q.getLast this, (List.dropLast_append_getLast this).symm⟩
    obtain ⟨m, m2, m3, r, e1, e2, e3, e4, e5, hr⟩ := shift_ok p q x h c2 v
    have hg2 : value.get m = .ok v := by rw [e3]; exact get_arg hv r
    refine ⟨_, ?_, hr⟩
    rw [e1, ok_bind, e2, ok_bind, hg2, ok_bind, e4, ok_bind, e5]; rfl
  · rcases reallocInsert_ok triv mx value v p q h hv with ⟨e, hm⟩ | ⟨a', e, r⟩
    · left; rw [e]; exact ⟨rfl, hm⟩
    · right; exact ⟨a', by rw [e]; rfl, r⟩

theorem emplace_ok (triv : Bool) (mx : ℕ) (v : α) {a : Vec α} (p q : List α) (h : Rep a (p ++ q)) :
    (emplace triv mx p.length (.copy v) a = .error .length ∧ mx < a.cap + 1) ∨
    ∃ a', emplace triv mx p.length (.copy v) a = .ok (a', p.length) ∧ Rep a' (p ++ v :: q) := by
  have h0 := h
  obtain ⟨rest, h1, h2, _⟩ := h0
  rw [List.length_append] at h2
  unfold emplace
  simp only [Ref.get, ok_bind]
  split_ifs with c1 c2
  · right
    obtain rfl : q = [] := List.length_eq_zero_iff.mp (by omega)
    obtain ⟨m, e, r⟩ := append_ok h c1.1 v
    exact ⟨_, by rw [e]; rfl, by simpa using r⟩
  · right
    obtain ⟨q, x, rfl⟩ : ∃ t x, q = t ++ [x] := by
      have : q ≠ [] := by rintro rfl; simp at h2; exact c1 ⟨c2, h2.symm⟩
      exact ⟨q.dropLast, q.getLast this, (List.dropLast_append_getLast this).symm⟩
    obtain ⟨m, m2, m3, r, e1, e2, e3, e4, e5, hr⟩ := shift_ok p q x h c2 v
    refine ⟨_, ?_, hr⟩
    rw [e1, ok_bind, e2, ok_bind, e4, ok_bind, e5]; rfl
  · rcases reallocInsert_ok triv mx (.copy v) v p q h (Or.inl rfl) with ⟨e, hm⟩ | ⟨a', e, r⟩
    · left; rw [e]; exact ⟨rfl, hm⟩
    · right; exact ⟨a', by rw [e]; rfl, r⟩

theorem eraseRange_ok (triv : Bool) {a : Vec α} (p w q : List α) (h : Rep a (p ++ (w ++ q))) :
    ∃ a', eraseRange triv p.length (p.length + w.length) a = .ok (a', p.length) ∧ Rep a' (p ++ q) ∧ a'.cap = a.cap := by
  obtain ⟨rest, h1, h2, h3, h4⟩ := h
  simp at h2 h3
  rw [h1] at h4
  simp at h4
  obtain ⟨z, e1, z1, z2⟩ := moveForward_ok triv w.length q (L p) (L w) rest (a.size - (p.length + w.length)) (p.length + w.length) p.length
    (by omega) (by simp) (noRaw_L w) (by simp) (by simp)
  have e2 := destroyN_ok z (L (p ++ q)) rest w.length (p.length + (a.size - (p.length + w.length))) z1 (by simp; omega) z2
  unfold eraseRange
  rw [if_neg (by omega)]
  refine ⟨⟨L (p ++ q) ++ (List.replicate w.length .raw ++ rest), a.size - w.length, a.cap⟩, ?_, ⟨List.replicate w.length .raw ++ rest, by simp, ?_, ?_, ?_⟩, rfl⟩
  · rw [h1, show L (p ++ (w ++ q)) ++ rest = L p ++ L w ++ L q ++ rest by simp, e1, ok_bind,
      show L p ++ L q ++ z ++ rest = L (p ++ q) ++ z ++ rest by simp, show p.length + w.length - p.length = w.length by omega, e2,
      List.append_assoc]; rfl
  · simp; omega
  · simp; omega
  · simp; omega

theorem eraseAt_ok (triv : Bool) {a : Vec α} (p q : List α) (x : α) (h : Rep a (p ++ x :: q)) :
    ∃ a', eraseAt triv p.length a = .ok (a', p.length) ∧ Rep a' (p ++ q) ∧ a'.cap = a.cap := by
  obtain ⟨rest, h1, h2, h3, h4⟩ := h
  simp at h2 h3
  rw [h1] at h4
  simp at h4
  obtain ⟨z, e1, z1, z2⟩ := moveForward_ok triv 1 q (L p) (L [x]) rest (a.size - (p.length + 1)) (p.length + 1) p.length
    (by omega) (by simp) (noRaw_L _) (by simp) (by simp)
  obtain ⟨d, rfl⟩ := List.length_eq_one_iff.mp z1
  have e2 := destroy_at (L (p ++ q)) d rest (a.size - 1) (by simp; omega) (z2 d (by simp))
  unfold eraseAt
  rw [if_neg (by omega)]
  refine ⟨⟨L (p ++ q) ++ .raw :: rest, a.size - 1, a.cap⟩, ?_, ⟨.raw :: rest, by simp, ?_, ?_, ?_⟩, rfl⟩
  · rw [h1, show L (p ++ x :: q) ++ rest = L p ++ L [x] ++ L q ++ rest by simp, e1, ok_bind,
      show L p ++ L q ++ [d] ++ rest = L (p ++ q) ++ d :: rest by simp, e2]; rfl
  · simp; omega
  · simp; omega
  · simp; omega

theorem uninitFill_eq (v : α) : ∀ (n i : ℕ) (m : Mem α), uninitFill v n i m = uninitCopy (List.replicate n v) i m := by
  intro n
  induction n with
  | zero => intro i m; rfl
  | succ n ih =>
    intro i m
    rw [List.replicate_succ, uninitFill, uninitCopy]
    rcases construct m i v with e | m'
    · rfl
    · simp [ih]

/-- inserting several elements in place, more elements behind than inserted -/
theorem inplace1 (triv : Bool) {a : Vec α} (p q w : List α) (h : Rep a (p ++ q)) (hc : w.length ≤ a.cap - a.size) (hq : w.length < q.length) :
    ∃ m1 m2 m3, uninitCopyIn w.length (a.size - w.length) a.size a.mem = .ok m1 ∧
      moveBackward triv p.length (p.length + w.length) (a.size - w.length - p.length) m1 = .ok m2 ∧
      uninitCopy w p.length m2 = .ok m3 ∧ Rep ⟨m3, a.size + w.length, a.cap⟩ (p ++ (w ++ q)) := by
  obtain ⟨rest, h1, h2, h3, h4⟩ := h
  simp at h2 h3
  rw [h1] at h4
  simp at h4
  obtain ⟨t, u, rfl, ht⟩ := split_at (l := q) (pos := q.length - w.length) (by omega)
  simp at ht hq h2 h3 h4
  have hu : u.length = w.length := by omega
  obtain ⟨x, post, rfl, hx⟩ := split_at (l := rest) (pos := w.length) (by omega)
  have e1 := uninitCopyIn_ok u (L (p ++ t)) [] x post w.length (a.size - w.length) a.size hu hx (by simp; omega) (by simp; omega)
  obtain ⟨z, e2, z1, z2⟩ := moveBackward_ok triv (L p) w.length p.length (p.length + w.length) (by simp) (by simp) (a.size - w.length - p.length)
    t (L u) (L u ++ post) (by omega) (by simp [hu]) (noRaw_L u)
  have e3 := uninitCopy_ok w z (L p) (L t ++ (L u ++ post)) p.length z1 (by simp)
  refine ⟨?_, ?_, ?_, ?_, ?_, ?_, ⟨post, ?_, ?_, ?_, ?_⟩⟩
  rotate_left 3
  · rw [h1, show L (p ++ (t ++ u)) ++ (x ++ post) = L (p ++ t) ++ L u ++ [] ++ x ++ post by simp]; exact e1
  · rw [show L (p ++ t) ++ L u ++ [] ++ L u ++ post = L p ++ L t ++ L u ++ (L u ++ post) by simp]; exact e2
  · rw [show L p ++ z ++ L t ++ (L u ++ post) = L p ++ z ++ (L t ++ (L u ++ post)) by simp]; exact e3
  · simp
  · simp; omega
  · simp; omega
  · simp at h4 ⊢; omega

/-- inserting several elements in place, at most as many elements behind as inserted -/
theorem inplace2 (triv : Bool) {a : Vec α} (p q w : List α) (h : Rep a (p ++ q)) (hc : w.length ≤ a.cap - a.size) (hq : q.length ≤ w.length) :
    ∃ m1 m2 m3, uninitCopy (w.drop q.length) a.size a.mem = .ok m1 ∧
      uninitMoveIn triv q.length p.length (a.size + (w.length - q.length)) m1 = .ok m2 ∧
      uninitCopy (w.take q.length) p.length m2 = .ok m3 ∧
      Rep ⟨m3, a.size + (w.length - q.length) + q.length, a.cap⟩ (p ++ (w ++ q)) := by
  obtain ⟨rest, h1, h2, h3, h4⟩ := h
  simp at h2 h3
  rw [h1] at h4
  simp at h4
  obtain ⟨w1, w2, rfl, hw⟩ := split_at (l := w) (pos := q.length) hq
  simp at hc
  rw [show (w1 ++ w2).drop q.length = w2 by rw [← hw]; simp, show (w1 ++ w2).take q.length = w1 by rw [← hw]; simp]
  obtain ⟨x, post, rfl, hx⟩ := split_at (l := rest) (pos := w1.length + w2.length) (by omega)
  obtain ⟨x1, x2, rfl, hx1⟩ := split_at (l := x) (pos := w2.length) (by omega)
  simp at hx h4
  have e1 := uninitCopy_ok w2 x1 (L (p ++ q)) (x2 ++ post) a.size hx1 (by simp; omega)
  obtain ⟨z, e2, z1⟩ := uninitMoveIn_ok triv q (L p) (L w2) x2 post q.length p.length (a.size + ((w1 ++ w2).length - q.length)) rfl (by omega)
    (by simp) (by simp; omega)
  have e3 := uninitCopy_ok w1 z (L p) (L w2 ++ L q ++ post) p.length (by omega) (by simp)
  refine ⟨?_, ?_, ?_, ?_, ?_, ?_, ⟨post, ?_, ?_, ?_, ?_⟩⟩
  rotate_left 3
  · rw [h1, show L (p ++ q) ++ (x1 ++ x2 ++ post) = L (p ++ q) ++ x1 ++ (x2 ++ post) by simp]; exact e1
  · rw [show L (p ++ q) ++ L w2 ++ (x2 ++ post) = L p ++ L q ++ L w2 ++ x2 ++ post by simp]; exact e2
  · rw [show L p ++ z ++ L w2 ++ L q ++ post = L p ++ z ++ (L w2 ++ L q ++ post) by simp]; exact e3
  · simp
  · simp; omega
  · simp; omega
  · simp at h4 ⊢; omega

/-- inserting several elements with a new block -/
theorem regrow (triv : Bool) (p q w : List α) (rest : Mem α) (c : ℕ) (hc : p.length + w.length + q.length ≤ c) :
    ∃ z q1 q2 m3 q3, uninitMoveTo triv p.length 0 0 (L (p ++ q) ++ rest) (allocate c) = .ok (z ++ (L q ++ rest), q1) ∧ (triv = true → z = L p) ∧
      uninitCopy w p.length q1 = .ok q2 ∧
      uninitMoveTo triv q.length p.length (p.length + w.length) (z ++ (L q ++ rest)) q2 = .ok (m3, q3) ∧
      Rep ⟨q3, p.length + q.length + w.length, c⟩ (p ++ (w ++ q)) := by
  obtain ⟨r, hr⟩ := alloc_split (α := α) p.length w.length q.length c (by omega)
  have hl := congrArg List.length hr
  obtain ⟨z, e1, z1, z2, z3⟩ := half1 triv p (L q ++ rest) w.length q.length r
  have e2 := uninitCopy_ok w (List.replicate w.length .raw) (L p) (List.replicate q.length .raw ++ List.replicate r .raw) p.length (by simp) (by simp)
  obtain ⟨z', e3, y1, y2⟩ := half2 triv p w q z rest r p.length (p.length + w.length) q.length z1 rfl rfl rfl
  refine ⟨z, ?_, ?_, ?_, ?_, ?_, z3, ?_, ?_, ⟨List.replicate r .raw, ?_, ?_, ?_, ?_⟩⟩
  rotate_left 4
  · rw [hr, L_append, List.append_assoc]; exact e1
  · rw [← List.append_assoc (L p)]; exact e2
  · rw [List.append_assoc (L p)]; exact e3
  · simp
  · simp; omega
  · simp; omega
  · simp [allocate] at hl ⊢; omega

theorem copyInsert_ok (triv : Bool) (mx : ℕ) {a : Vec α} (p q w : List α) (h : Rep a (p ++ q)) :
    (copyInsert triv mx p.length w a = .error .length ∧ mx < a.cap + w.length) ∨
    ∃ a', copyInsert triv mx p.length w a = .ok a' ∧ Rep a' (p ++ (w ++ q)) := by
  have h0 := h
  obtain ⟨rest, h1, h2, h3, h4⟩ := h0
  rw [List.length_append] at h2 h3
  have hap : a.size - p.length = q.length := by omega
  unfold copyInsert
  by_cases hw : w = []
  · subst hw; right; exact ⟨a, by simp, by simpa using h⟩
  rw [if_neg hw]
  simp only []
  split_ifs with c1 c2
  · right
    obtain ⟨m1, m2, m3, e1, e2, e3, r⟩ := inplace1 triv p q w h c1 (by omega)
    exact ⟨_, by rw [e1, ok_bind, e2, ok_bind, e3]; rfl, r⟩
  · right
    obtain ⟨m1, m2, m3, e1, e2, e3, r⟩ := inplace2 triv p q w h c1 (by omega)
    rw [hap]
    exact ⟨_, by rw [e1, ok_bind, e2, ok_bind, e3]; rfl, r⟩
  · rcases newCap_ok mx a.cap w.length with ⟨e, he⟩ | ⟨c, e, hc⟩
    · left; rw [e]; exact ⟨rfl, he⟩
    · right
      obtain ⟨z, q1, q2, m3, q3, e1, _, e2, e3, r⟩ := regrow triv p q w rest c (by omega)
      rw [← h2] at r
      refine ⟨_, ?_, r⟩
      rw [e, ok_bind, h1, e1]
      simp only [ok_bind]
      rw [e2, ok_bind, hap, e3]; rfl

theorem fillInsert_ok (triv : Bool) (mx n : ℕ) (value : Ref α) (v : α) {a : Vec α} (p q : List α) (h : Rep a (p ++ q))
    (hv : Arg triv (p ++ q) value v) :
    (fillInsert triv mx p.length n value a = .error .length ∧ mx < a.cap + n) ∨
    ∃ a', fillInsert triv mx p.length n value a = .ok (a', p.length) ∧ Rep a' (p ++ (List.replicate n v ++ q)) := by
  have h0 := h
  obtain ⟨rest, h1, h2, h3, h4⟩ := h0
  rw [List.length_append] at h2 h3
  have hap : a.size - p.length = q.length := by omega
  have hg : value.get a.mem = .ok v := by rw [h1]; exact get_arg hv rest
  unfold fillInsert
  by_cases hn : n = 0
  · subst hn; right; exact ⟨a, by simp, by simpa using h⟩
  rw [if_neg hn, hg, ok_bind]
  have hw : (List.replicate n v).length = n := by simp
  simp only []
  split_ifs with c1 c2
  · right
    obtain ⟨m1, m2, m3, e1, e2, e3, r⟩ := inplace1 triv p q (List.replicate n v) h (by omega) (by omega)
    rw [hw] at e1 e2 r
    exact ⟨_, by rw [e1, ok_bind, e2, ok_bind, uninitFill_eq, e3]; rfl, r⟩
  · right
    obtain ⟨m1, m2, m3, e1, e2, e3, r⟩ := inplace2 triv p q (List.replicate n v) h (by omega) (by omega)
    rw [hw] at e2 r
    rw [hap]
    rw [List.drop_replicate] at e1
    rw [List.take_replicate, show min q.length n = q.length by omega] at e3
    exact ⟨_, by rw [uninitFill_eq, e1, ok_bind, e2, ok_bind, uninitFill_eq, e3]; rfl, r⟩
  · rcases newCap_ok mx a.cap n with ⟨e, he⟩ | ⟨c, e, hc⟩
    · left; rw [e]; exact ⟨rfl, he⟩
    · right
      obtain ⟨z, q1, q2, m3, q3, e1, ez, e2, e3, r⟩ := regrow triv p q (List.replicate n v) rest c (by omega)
      rw [← h2, hw] at r
      rw [hw] at e3
      have hg2 : value.get (z ++ (L q ++ rest)) = .ok v := by
        rcases hv with rfl | ⟨ht, hv⟩
        · rfl
        · rw [ez ht, ← List.append_assoc, ← L_append]
          exact get_arg (triv := triv) (Or.inr ⟨ht, hv⟩) rest
      refine ⟨_, ?_, r⟩
      rw [e, ok_bind, h1, e1]
      simp only [ok_bind]
      rw [hg2, ok_bind, uninitFill_eq, e2, ok_bind, hap, e3]; rfl

theorem resize_ok (triv : Bool) (mx n : ℕ) (value : Ref α) (v : α) {a : Vec α} (l : List α) (h : Rep a l) (hv : Arg triv l value v) :
    (resize triv mx n value a = .error .length ∧ mx < a.cap + (n - l.length)) ∨
    ∃ a', resize triv mx n value a = .ok a' ∧ Rep a' (l.take n ++ List.replicate (n - l.length) v) := by
  have h0 := h
  obtain ⟨rest, h1, h2, h3, h4⟩ := h0
  unfold resize
  split_ifs with c
  · right
    obtain ⟨p, q, rfl, hp⟩ := split_at (l := l) (pos := n) (by omega)
    simp at h2
    obtain ⟨a', e, r, _⟩ := eraseRange_ok triv p q [] (by simpa using h)
    subst hp
    refine ⟨a', by rw [h2, e]; rfl, ?_⟩
    rw [show p.length - (p ++ q).length = 0 by simp]
    simpa using r
  · rcases fillInsert_ok triv mx (n - l.length) value v l [] (by simpa using h) (by simpa using hv) with ⟨e, he⟩ | ⟨a', e, r⟩
    · left; rw [h2, e]; exact ⟨rfl, he⟩
    · right
      refine ⟨a', by rw [h2, e]; rfl, ?_⟩
      rw [List.take_of_length_le (by omega)]; simpa using r

theorem fillRef_ok (v : α) (value : Ref α) : ∀ (q p : List α) (rest : Mem α) (n i : ℕ), q.length = n → i = p.length →
    (value = .copy v ∨ ∃ j, value = .elem j ∧ (p ++ q)[j]? = some v) → 
    fillRef value n i (L (p ++ q) ++ rest) = .ok (L (p ++ List.replicate n v) ++ rest) := by
  intro q
  induction q with
  | nil => intro p rest n i h1 h2 _; subst h1; simp [fillRef]
  | cons x q ih =>
    intro p rest n i h1 h2 hv
    subst h1
    have hg : value.get (L (p ++ x :: q) ++ rest) = .ok v := by
      rcases hv with rfl | ⟨j, rfl, hj⟩
      · rfl
      · exact rd_L hj rest
    rw [List.length_cons, fillRef, hg, ok_bind, show L (p ++ x :: q) ++ rest = L p ++ .live x :: (L q ++ rest) by simp,
      assign_at _ _ _ _ _ (by simp [h2]) (by simp), ok_bind,
      show L p ++ .live v :: (L q ++ rest) = L ((p ++ [v]) ++ q) ++ rest by simp, ih (p ++ [v]) rest _ _ rfl (by simp [h2])]
    · simp [List.replicate_succ]
    · rcases hv with rfl | ⟨j, rfl, hj⟩
      · exact Or.inl rfl
      · refine Or.inr ⟨j, rfl, ?_⟩
        rcases Nat.lt_trichotomy j p.length with h | h | h
        · rw [List.append_assoc, List.getElem?_append_left h]; rwa [List.getElem?_append_left h] at hj
        · subst h; simp
        · rw [List.append_assoc, List.getElem?_append_right (by omega)]
          rw [List.getElem?_append_right (by omega)] at hj
          obtain ⟨k, hk⟩ : ∃ k, j - p.length = k + 1 := ⟨j - p.length - 1, by omega⟩
          rw [hk] at hj ⊢
          simpa using hj

theorem fillAssign_ok (triv : Bool) (n : ℕ) (value : Ref α) (v : α) {a : Vec α} (l : List α) (h : Rep a l) (hv : Arg triv l value v) :
    ∃ a', fillAssign triv n value a = .ok a' ∧ Rep a' (List.replicate n v) := by
  have h0 := h
  obtain ⟨rest, h1, h2, h3, h4⟩ := h0
  have hg : value.get a.mem = .ok v := by rw [h1]; exact get_arg hv rest
  have hv' : value = .copy v ∨ ∃ j, value = .elem j ∧ l[j]? = some v := hv.imp id (·.2)
  unfold fillAssign
  split_ifs with c1 c2
  · obtain ⟨t, e, r⟩ := fillInit_ok n v
    obtain ⟨m, e2⟩ := rep_destroy h
    exact ⟨t, by rw [hg, ok_bind, e, ok_bind, e2]; rfl, r⟩
  · rw [h1] at h4
    simp at h4
    have e1 := fillRef_ok v value l [] rest a.size 0 h2.symm rfl (by simpa using hv')
    simp only [List.nil_append] at e1
    have hg2 : value.get (L (List.replicate a.size v) ++ rest) = .ok v := by
      rcases hv' with rfl | ⟨j, rfl, hj⟩
      · rfl
      · refine rd_L ?_ rest
        have : j < l.length := by
          rcases Nat.lt_or_ge j l.length with h' | h'
          · exact h'
          · rw [List.getElem?_eq_none h'] at hj; simp at hj
        rw [List.getElem?_replicate]; simp; omega
    obtain ⟨x, post, rfl, hx⟩ := split_at (l := rest) (pos := n - a.size) (by omega)
    have e2 := uninitFill_ok v x (L (List.replicate a.size v)) post (n - a.size) a.size hx (by simp)
    refine ⟨⟨L (List.replicate n v) ++ post, n, a.cap⟩, ?_, ⟨post, rfl, by simp, by simp; omega, by simp at h4 ⊢; omega⟩⟩
    rw [h1, e1, ok_bind, hg2, ok_bind, ← List.append_assoc, e2, ← L_append, ← List.replicate_add, show a.size + (n - a.size) = n by omega]; rfl
  · obtain ⟨p, q, rfl, hp⟩ := split_at (l := l) (pos := n) (by omega)
    have e1 : fillRef value n 0 (L (p ++ q) ++ rest) = .ok (L (List.replicate n v ++ q) ++ rest) := by
      have key : ∀ (k : ℕ) (p1 p2 : List α), p2.length = k → (value = .copy v ∨ ∃ j, value = .elem j ∧ (p1 ++ (p2 ++ q))[j]? = some v) →
          fillRef value k p1.length (L (p1 ++ (p2 ++ q)) ++ rest) = .ok (L (p1 ++ (List.replicate k v ++ q)) ++ rest) := by
        intro k
        induction k with
        | zero => intro p1 p2 h _; obtain rfl := List.length_eq_zero_iff.mp h; simp [fillRef]
        | succ k ih =>
          intro p1 p2 hp2 hv
          obtain ⟨x, p2, rfl⟩ := List.exists_cons_of_length_eq_add_one hp2
          have hg : value.get (L (p1 ++ (x :: p2 ++ q)) ++ rest) = .ok v := by
            rcases hv with rfl | ⟨j, rfl, hj⟩
            · rfl
            · exact rd_L hj rest
          rw [fillRef, hg, ok_bind, show L (p1 ++ (x :: p2 ++ q)) ++ rest = L p1 ++ .live x :: (L p2 ++ L q ++ rest) by simp,
            assign_at _ _ _ _ _ (by simp) (by simp), ok_bind,
            show L p1 ++ .live v :: (L p2 ++ L q ++ rest) = L ((p1 ++ [v]) ++ (p2 ++ q)) ++ rest by simp,
            show p1.length + 1 = (p1 ++ [v]).length by simp, ih (p1 ++ [v]) p2 (by simpa using hp2)]
          · simp [List.replicate_succ]
          · rcases hv with rfl | ⟨j, rfl, hj⟩
            · exact Or.inl rfl
            · refine Or.inr ⟨j, rfl, ?_⟩
              rcases Nat.lt_trichotomy j p1.length with h | h | h
              · rw [List.append_assoc, List.getElem?_append_left h]; rwa [List.getElem?_append_left h] at hj
              · subst h; simp
              · rw [List.append_assoc, List.getElem?_append_right (by omega)]
                rw [List.getElem?_append_right (by omega)] at hj
                obtain ⟨k, hk⟩ : ∃ k, j - p1.length = k + 1 := ⟨j - p1.length - 1, by omega⟩
                rw [hk] at hj ⊢
                simpa using hj
      simpa using key n [] p hp (by simpa using hv')
    have r1 : Rep (⟨L (List.replicate n v ++ q) ++ rest, a.size, a.cap⟩ : Vec α) (List.replicate n v ++ q) := by
      refine ⟨rest, rfl, ?_, ?_, ?_⟩
      · simp at h2 ⊢; omega
      · simp at h2 h3 ⊢; omega
      · rw [h1] at h4; simp at h2 h3 h4 ⊢; omega
    obtain ⟨a', e, r, _⟩ := eraseRange_ok triv (List.replicate n v) q [] (by rw [List.append_nil]; exact r1)
    refine ⟨a', ?_, by simpa using r⟩
    rw [h1, e1, ok_bind]
    simp at h2
    simp only [List.length_replicate] at e
    rw [show a.size = n + q.length by omega] at e ⊢
    rw [e]; rfl

end Verif.Vector
