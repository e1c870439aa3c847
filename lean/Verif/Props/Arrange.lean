import Verif.Props.RotateCycle
import Verif.PermuteSpec

/-! # C64, C65: `reverse`, `rotate`, `next_permutation`, `prev_permutation` -/

namespace Verif.Permute

open Verif.Sort (wr)

variable {α : Type}

/-! ## C64 -/

/-- **C64.** For every array, every range `[first, last)` of it (the part `mid` between `pre` and `post`) and both kinds of iterator
`reverse` accepts, `reverse` returns, puts the elements of the range into the opposite order, and changes nothing outside the range. -/
theorem c64_reverse {c : Cat} (hc : c ≠ .fwd) (pre mid post : List α) :
    reverse c (pre ++ mid ++ post) pre.length (pre.length + mid.length) = some (pre ++ mid.reverse ++ post) :=
  reverse_list hc pre mid post

example : reverse .ra [9, 1, 2, 3, 8] 1 4 = some [9, 3, 2, 1, 8] ∧ reverse .bi [9, 1, 2, 3, 4, 8] 1 5 = some [9, 4, 3, 2, 1, 8] := by
  decide

/-- **C64.** For every array and every range of it divided in two (`left` then `right`, either of which may be empty), and for each of
the three kinds of iterator, `rotate` returns, exchanges the two parts keeping the order inside each, changes nothing outside the
range, and returns the position of the element that was first. -/
theorem c64_rotate (c : Cat) (pre left right post : List α) :
    rotate c (pre ++ left ++ right ++ post) pre.length (pre.length + left.length) (pre.length + left.length + right.length) =
      some (pre ++ right ++ left ++ post, pre.length + right.length) := by
  unfold rotate
  by_cases h1 : left = []
  · subst h1; rw [if_pos (by simp)]; simp
  · have h1l : 0 < left.length := List.length_pos_iff.mpr h1
    rw [if_neg (by omega)]
    by_cases h2 : right = []
    · subst h2; rw [if_pos (by simp)]; simp
    · have h2l : 0 < right.length := List.length_pos_iff.mpr h2
      rw [if_neg (by omega)]
      cases c with
      | fwd =>
        have := rotateFwd_ok pre left right post h1 h2
        have e : pre ++ left ++ right ++ post = pre ++ (left ++ right ++ post) := by simp
        show rotateFwd _ _ _ _ = _
        rw [e, this]; simp
      | bi => exact rotateBi_ok pre left right post
      | ra => exact rotateRa_ok pre left right post h1 h2

example : rotate .ra [9, 1, 2, 3, 4, 5, 6, 8] 1 5 7 = some ([9, 5, 6, 1, 2, 3, 4, 8], 3) ∧
    rotate .bi [9, 1, 2, 3, 4, 5, 6, 8] 1 5 7 = some ([9, 5, 6, 1, 2, 3, 4, 8], 3) ∧
    rotate .fwd [9, 1, 2, 3, 4, 5, 6, 8] 1 5 7 = some ([9, 5, 6, 1, 2, 3, 4, 8], 3) ∧
    rotate .ra [9, 1, 2, 3, 4, 5, 6, 8] 1 3 7 = some ([9, 3, 4, 5, 6, 1, 2, 8], 5) := by
  decide

/-! ## C65 -/

variable {lt : α → α → Bool}

theorem irrefl (hlt : StrictWeak lt) (x : α) : lt x x = false := by
  by_contra h
  have h1 : lt x x = true := by simpa using h
  have := hlt.asymm x x h1
  simp [h1] at this

/-- the predicate does not tell equivalent elements apart -/
def Resp (lt : α → α → Bool) (P : α → Bool) : Prop := ∀ x y, lt x y = false → lt y x = false → P x = P y

/-- the same elements up to equivalence -/
def Same (lt : α → α → Bool) (a c : List α) : Prop := ∀ P, Resp lt P → a.countP P = c.countP P

theorem Same.len {a c : List α} (h : Same lt a c) : a.length = c.length := by
  have := h (fun _ => true) (fun _ _ _ _ => rfl)
  simpa using this

theorem same_of_perm {a c : List α} (h : a.Perm c) : Same lt a c := fun P _ => h.countP_eq P

theorem Same.tail {x y : α} {xs ys : List α} (h : Same lt (x :: xs) (y :: ys)) (h1 : lt x y = false) (h2 : lt y x = false) :
    Same lt xs ys := by
  intro P hP
  have h3 := h P hP
  rw [List.countP_cons, List.countP_cons, hP x y h1 h2] at h3
  omega

theorem resp_lt_left (hlt : StrictWeak lt) (x : α) : Resp lt (fun z => lt x z) := by
  intro y z h1 h2
  show lt x y = lt x z
  by_cases h : lt x y = true
  · rcases hlt.trans_neg x z y h with h3 | h3
    · rw [h, h3]
    · rw [h2] at h3; cases h3
  · by_cases h' : lt x z = true
    · rcases hlt.trans_neg x y z h' with h3 | h3
      · exact absurd h3 h
      · rw [h1] at h3; cases h3
    · simp only [Bool.not_eq_true] at h h'; rw [h, h']

theorem resp_lt_right (hlt : StrictWeak lt) (x : α) : Resp lt (fun z => lt z x) := by
  intro y z h1 h2
  show lt y x = lt z x
  by_cases h : lt y x = true
  · rcases hlt.trans_neg y z x h with h3 | h3
    · rw [h1] at h3; cases h3
    · rw [h, h3]
  · by_cases h' : lt z x = true
    · rcases hlt.trans_neg z y x h' with h3 | h3
      · rw [h2] at h3; cases h3
      · exact absurd h3 h
    · simp only [Bool.not_eq_true] at h h'; rw [h, h']

/-- an element satisfying a predicate is matched by one on the other side -/
theorem Same.ex {a c : List α} (h : Same lt a c) {P : α → Bool} (hP : Resp lt P) {x : α} (hx : x ∈ a) (hPx : P x = true) :
    ∃ y ∈ c, P y = true := by
  have h1 : 0 < a.countP P := List.countP_pos_iff.mpr ⟨x, hx, hPx⟩
  rw [h P hP] at h1
  exact List.countP_pos_iff.mp h1

/-- a sorted sequence has no smaller arrangement -/
theorem sorted_min (hlt : StrictWeak lt) : ∀ (b c : List α), Sorted lt b → Same lt c b → ¬ LexLt lt c b
  | [], [], _, _, h => by simp [LexLt] at h
  | [], _ :: _, _, hs, _ => by have := hs.len; simp at this
  | _ :: _, [], _, hs, _ => by have := hs.len; simp at this
  | b0 :: bs, c0 :: cs, hb, hs, h => by
    have hb' := List.pairwise_cons.mp hb
    have hno : lt c0 b0 = false := by
      by_contra hc
      have hc : lt c0 b0 = true := by simpa using hc
      obtain ⟨y, hy, hyb⟩ := hs.ex (resp_lt_right hlt b0) (List.mem_cons_self) hc
      rcases List.mem_cons.mp hy with e | hy
      · subst e; rw [irrefl hlt] at hyb; cases hyb
      · rw [hb'.1 y hy] at hyb; cases hyb
    rcases h with h | ⟨h1, h2⟩
    · rw [hno] at h; cases h
    · exact sorted_min hlt bs cs hb'.2 (hs.tail hno h1) h2

/-- a sequence without ascents -/
def Falling (lt : α → α → Bool) (l : List α) : Prop := l.Pairwise (fun a b => lt a b = false)

/-- a sequence without ascents has no greater arrangement -/
theorem falling_max (hlt : StrictWeak lt) : ∀ (a c : List α), Falling lt a → Same lt c a → ¬ LexLt lt a c
  | [], [], _, _, h => by simp [LexLt] at h
  | [], _ :: _, _, hs, _ => by have := hs.len; simp at this
  | _ :: _, [], _, hs, _ => by have := hs.len; simp at this
  | a0 :: as, c0 :: cs, ha, hs, h => by
    have ha' := List.pairwise_cons.mp ha
    have hno : lt a0 c0 = false := by
      by_contra hc
      have hc : lt a0 c0 = true := by simpa using hc
      obtain ⟨y, hy, hyb⟩ := hs.ex (resp_lt_left hlt a0) (List.mem_cons_self) hc
      rcases List.mem_cons.mp hy with e | hy
      · subst e; rw [irrefl hlt] at hyb; cases hyb
      · rw [ha'.1 y hy] at hyb; cases hyb
    rcases h with h | ⟨h1, h2⟩
    · rw [hno] at h; cases h
    · exact falling_max hlt as cs ha'.2 (hs.tail h1 hno) h2

/-- nothing lies between an arrangement and the one built by raising its last ascent as little as possible -/
theorem between (hlt : StrictWeak lt) {x y : α} {s t : List α} (hs : Falling lt s) (ht : Sorted lt t)
    (hsame : Same lt (y :: t) (x :: s)) (hmin : ∀ z ∈ s, lt x z = true → lt z y = false) : ∀ (p c : List α),
    Same lt c (p ++ x :: s) → LexLt lt (p ++ x :: s) c → ¬ LexLt lt c (p ++ y :: t)
  | [], [], h, _, _ => by have := h.len; simp at this
  | [], c0 :: cs, h, h1, h2 => by
    simp only [List.nil_append] at h h1 h2
    by_cases hxc : lt x c0 = true
    · have hno : lt c0 y = false := by
        by_contra hc
        have hc : lt c0 y = true := by simpa using hc
        obtain ⟨z, hz, hzb⟩ := h.ex (P := fun z => lt x z && lt z y)
          (fun u v h3 h4 => by
            show (lt x u && lt u y) = (lt x v && lt v y)
            rw [show lt x u = lt x v from resp_lt_left hlt x u v h3 h4,
            show lt u y = lt v y from resp_lt_right hlt y u v h3 h4]) (List.mem_cons_self) (by rw [hxc, hc]; rfl)
        rw [Bool.and_eq_true] at hzb
        rcases List.mem_cons.mp hz with e | hz
        · subst e; rw [irrefl hlt] at hzb; exact absurd hzb.1 (by simp)
        · rw [hmin z hz hzb.1] at hzb; exact absurd hzb.2 (by simp)
      rcases h2 with h2 | ⟨h3, h4⟩
      · rw [hno] at h2; cases h2
      · have hs2 : Same lt (c0 :: cs) (y :: t) := fun P hP => (h P hP).trans (hsame P hP).symm
        exact sorted_min hlt t cs ht (hs2.tail hno h3) h4
    · have hxc : lt x c0 = false := by simpa using hxc
      rcases h1 with h1 | ⟨h3, h4⟩
      · rw [hxc] at h1; cases h1
      · exact falling_max hlt s cs hs (h.tail h3 hxc) h4
  | q :: p, [], h, _, _ => by have := h.len; simp at this
  | q :: p, c0 :: cs, h, h1, h2 => by
    simp only [List.cons_append] at h h1 h2
    have hq : lt q c0 = false := by
      by_contra hc
      have hc : lt q c0 = true := by simpa using hc
      rcases h2 with h2 | ⟨h3, _⟩
      · rw [hlt.asymm _ _ h2] at hc; cases hc
      · rw [h3] at hc; cases hc
    rcases h1 with h1 | ⟨h3, h4⟩
    · rw [hq] at h1; cases h1
    rcases h2 with h2 | ⟨_, h6⟩
    · rw [h3] at h2; cases h2
    exact between hlt hs ht hsame hmin p cs (h.tail h3 hq) h4 h6

theorem lex_raise (hlt : StrictWeak lt) {x y : α} {s t : List α} (h : lt x y = true) : ∀ p : List α,
    LexLt lt (p ++ x :: s) (p ++ y :: t)
  | [] => Or.inl h
  | q :: p => Or.inr ⟨irrefl hlt q, lex_raise hlt h p⟩

theorem findGreater_ok (x : α) (A B : List α) : ∀ (fuel : Nat) (u : List α), u.length < fuel → (∃ z ∈ u, lt x z = true) →
    ∃ u1 y u2, u = u1 ++ y :: u2 ∧ lt x y = true ∧ (∀ z ∈ u2, lt x z = false) ∧
      findGreater lt (A ++ u ++ B) x fuel (A.length + u.length) = some (A.length + u1.length)
  | 0, _, h, _ => by omega
  | fuel + 1, u, hf, hex => by
    rcases List.eq_nil_or_concat u with rfl | ⟨v, z, hvz⟩
    · obtain ⟨z, hz, _⟩ := hex; simp at hz
    rw [List.concat_eq_append] at hvz
    subst hvz
    unfold findGreater
    have hd : dec (A.length + (v ++ [z]).length) = some (A.length + v.length) := by
      unfold dec; rw [if_neg (by simp)]; simp
    rw [hd]; simp only [Option.bind_eq_bind, Option.bind_some]
    have hz : (A ++ (v ++ [z]) ++ B)[A.length + v.length]? = some z := by
      have e : A ++ (v ++ [z]) ++ B = (A ++ v) ++ (z :: B) := by simp
      rw [e, List.getElem?_append_right (by simp)]; simp
    rw [hz]; simp only [Option.bind_some]
    by_cases h : lt x z = true
    · rw [h]
      exact ⟨v, z, [], rfl, h, by simp, by simp⟩
    · have h' : lt x z = false := by simpa using h
      rw [h']
      obtain ⟨w, hw, hwx⟩ := hex
      have hwv : w ∈ v := by
        rcases List.mem_append.mp hw with hw | hw
        · exact hw
        · simp only [List.mem_singleton] at hw; subst hw; exact absurd hwx h
      obtain ⟨u1, y, u2, h1, h2, h3, h4⟩ := findGreater_ok x A (z :: B) fuel v (by simp at hf; omega) ⟨w, hwv, hwx⟩
      refine ⟨u1, y, u2 ++ [z], by rw [h1]; simp, h2, ?_, ?_⟩
      · intro t ht
        rcases List.mem_append.mp ht with ht | ht
        · exact h3 t ht
        · simp only [List.mem_singleton] at ht; subst ht; exact h'
      · have e : A ++ (v ++ [z]) ++ B = A ++ v ++ (z :: B) := by simp
        rw [e]
        simpa using h4

theorem nextLoop_ok (hlt : StrictWeak lt) {c : Cat} (hc : c ≠ .fwd) (pre post : List α) : ∀ (fuel : Nat) (p s : List α),
    p ≠ [] → s ≠ [] → Falling lt s → p.length < fuel →
    ∃ d flag, nextLoop lt c pre.length (pre.length + (p ++ s).length) fuel (pre ++ (p ++ s) ++ post) (pre.length + p.length) =
      some (pre ++ d ++ post, flag) ∧
      (flag = true → NextArrangement lt (p ++ s) d) ∧
      (flag = false → LastArrangement lt (p ++ s) ∧ FirstArrangement lt d ∧ d.Perm (p ++ s))
  | 0, _, _, _, _, _, h => by omega
  | fuel + 1, p, s, hp, hs, hfall, hf => by
    rcases List.eq_nil_or_concat p with rfl | ⟨q, x, hqx⟩
    · exact absurd rfl hp
    rw [List.concat_eq_append] at hqx
    subst hqx
    obtain ⟨h, s', rfl⟩ := List.exists_cons_of_ne_nil hs
    unfold nextLoop
    have hd : dec (pre.length + (q ++ [x]).length) = some (pre.length + q.length) := by
      unfold dec; rw [if_neg (by simp)]; simp
    rw [hd]; simp only [Option.bind_eq_bind, Option.bind_some]
    have hx : (pre ++ (q ++ [x] ++ h :: s') ++ post)[pre.length + q.length]? = some x := by
      have e : pre ++ (q ++ [x] ++ h :: s') ++ post = (pre ++ q) ++ (x :: (h :: s' ++ post)) := by simp
      rw [e, List.getElem?_append_right (by simp)]; simp
    have hh : (pre ++ (q ++ [x] ++ h :: s') ++ post)[pre.length + (q ++ [x]).length]? = some h := by
      have e : pre ++ (q ++ [x] ++ h :: s') ++ post = (pre ++ (q ++ [x])) ++ (h :: (s' ++ post)) := by simp
      rw [e, List.getElem?_append_right (by simp)]; simp
    rw [hx, hh]; simp only [Option.bind_some]
    by_cases hlx : lt x h = true
    · rw [if_pos hlx]
      obtain ⟨s1, y, s2, e1, e2, e3, e4⟩ := findGreater_ok (lt := lt) x (pre ++ (q ++ [x])) post
        (pre.length + (q ++ [x] ++ h :: s').length + 1) (h :: s') (by simp; omega) ⟨h, List.mem_cons_self, hlx⟩
      have e5 : pre ++ (q ++ [x] ++ h :: s') ++ post = (pre ++ (q ++ [x])) ++ (h :: s') ++ post := by simp
      have e6 : pre.length + (q ++ [x] ++ h :: s').length = (pre ++ (q ++ [x])).length + (h :: s').length := by
        simp only [List.length_append]; omega
      rw [e5]
      rw [e6] at e4 ⊢
      rw [e4]; simp only [Option.bind_some]
      have h7 := swp_list (pre ++ q) s1 (s2 ++ post) x y
      have e7 : (pre ++ (q ++ [x])) ++ (h :: s') ++ post = (pre ++ q) ++ x :: (s1 ++ y :: (s2 ++ post)) := by rw [e1]; simp
      have e8 : (pre ++ q).length + 1 + s1.length = (pre ++ (q ++ [x])).length + s1.length := by
        simp only [List.length_append, List.length_cons, List.length_nil]; omega
      rw [e8] at h7
      rw [e7, show pre.length + q.length = (pre ++ q).length by simp, h7]
      simp only [Option.bind_some]
      have h8 := reverse_list hc (pre ++ q ++ [y]) (s1 ++ x :: s2) post
      have e9 : (pre ++ q) ++ y :: (s1 ++ x :: (s2 ++ post)) = (pre ++ q ++ [y]) ++ (s1 ++ x :: s2) ++ post := by simp
      have e10 : pre.length + (q ++ [x]).length = (pre ++ q ++ [y]).length := by
        simp only [List.length_append, List.length_cons, List.length_nil]; omega
      have e11 : (pre ++ (q ++ [x])).length + (h :: s').length = (pre ++ q ++ [y]).length + (s1 ++ x :: s2).length := by
        rw [e1]; simp only [List.length_append, List.length_cons, List.length_nil]; omega
      rw [e9, e10, e11, h8]
      simp only [Option.bind_some]
      refine ⟨q ++ y :: (s1 ++ x :: s2).reverse, true, by simp, fun _ => ?_, fun hf => by cases hf⟩
      have e12 : q ++ [x] ++ h :: s' = q ++ x :: (s1 ++ y :: s2) := by rw [e1]; simp
      rw [e12]
      rw [e1] at hfall
      have hfall' := List.pairwise_append.mp hfall
      have hfall2 := List.pairwise_cons.mp hfall'.2.1
      have hperm : (y :: (s1 ++ x :: s2).reverse).Perm (x :: (s1 ++ y :: s2)) := by
        have p1 : (y :: (s1 ++ x :: s2).reverse).Perm (y :: (s1 ++ x :: s2)) := (List.reverse_perm _).cons y
        have p2 : (y :: (s1 ++ x :: s2)).Perm (y :: x :: (s1 ++ s2)) := (List.perm_middle).cons y
        have p3 : (x :: (s1 ++ y :: s2)).Perm (x :: y :: (s1 ++ s2)) := (List.perm_middle).cons x
        exact (p1.trans p2).trans ((List.Perm.swap x y _).trans p3.symm)
      have hfall3 : Falling lt (s1 ++ x :: s2) := by
        refine List.pairwise_append.mpr ⟨hfall'.1, List.pairwise_cons.mpr ⟨fun z hz => e3 z hz, hfall2.2⟩, ?_⟩
        intro z hz w hw
        rcases List.mem_cons.mp hw with rfl | hw
        · by_contra hc
          have hc : lt z w = true := by simpa using hc
          rcases hlt.trans_neg z y w hc with h1 | h1
          · rw [hfall'.2.2 z hz y List.mem_cons_self] at h1; cases h1
          · rw [hlt.asymm _ _ h1] at e2; cases e2
        · exact hfall'.2.2 z hz w (List.mem_cons_of_mem _ hw)
      have hsort : Sorted lt (s1 ++ x :: s2).reverse := List.pairwise_reverse.mpr hfall3
      refine ⟨hperm.append_left q, lex_raise hlt e2 q, fun d hd hlex => ?_⟩
      refine between hlt hfall hsort (same_of_perm hperm) ?_ q d (same_of_perm hd) hlex
      intro z hz hxz
      rcases List.mem_append.mp hz with hz | hz
      · exact hfall'.2.2 z hz y List.mem_cons_self
      · rcases List.mem_cons.mp hz with rfl | hz
        · exact irrefl hlt z
        · rw [e3 z hz] at hxz; cases hxz
    · have hlx' : lt x h = false := by simpa using hlx
      rw [if_neg hlx]
      have hfall2 : Falling lt (x :: h :: s') := by
        refine List.pairwise_cons.mpr ⟨?_, hfall⟩
        intro z hz
        rcases List.mem_cons.mp hz with rfl | hz
        · exact hlx'
        · by_contra hc
          have hc : lt x z = true := by simpa using hc
          rcases hlt.trans_neg x h z hc with h1 | h1
          · rw [hlx'] at h1; cases h1
          · rw [(List.pairwise_cons.mp hfall).1 z hz] at h1; cases h1
      by_cases hq : q = []
      · subst hq
        rw [if_pos (by simp)]
        have h8 := reverse_list hc pre ([] ++ [x] ++ h :: s') post
        rw [h8]; simp only [Option.bind_some]
        have e : [] ++ [x] ++ h :: s' = x :: h :: s' := by simp
        rw [e]
        refine ⟨(x :: h :: s').reverse, false, rfl, fun hf => (by cases hf), fun _ => ⟨?_, ?_, List.reverse_perm _⟩⟩
        · intro d hd
          exact falling_max hlt _ d hfall2 (same_of_perm hd)
        · intro d hd
          exact sorted_min hlt _ d (List.pairwise_reverse.mpr hfall2) (same_of_perm hd)
      · have hql : 0 < q.length := List.length_pos_iff.mpr hq
        rw [if_neg (by omega)]
        have ih := nextLoop_ok hlt hc pre post fuel q (x :: h :: s') hq (by simp) hfall2 (by simp at hf; omega)
        have e : q ++ [x] ++ h :: s' = q ++ (x :: h :: s') := by simp
        rw [e]
        exact ih

/-- **C65.** For every strict weak order, every array and every range of it, `next_permutation` returns and changes only the range.
When it returns `true` the range holds the arrangement of its elements that comes directly after the old one in lexicographic order
(nothing lies between); when it returns `false` the old arrangement was the last and the range now holds the first. -/
theorem c65_next_permutation (hlt : StrictWeak lt) {c : Cat} (hc : c ≠ .fwd) (pre mid post : List α) :
    ∃ d flag, nextPermutation lt c (pre ++ mid ++ post) pre.length (pre.length + mid.length) = some (pre ++ d ++ post, flag) ∧
      (flag = true → NextArrangement lt mid d) ∧
      (flag = false → LastArrangement lt mid ∧ FirstArrangement lt d ∧ d.Perm mid) := by
  unfold nextPermutation
  by_cases h0 : mid = []
  · subst h0
    rw [if_pos (by simp)]
    refine ⟨[], false, rfl, fun h => (by cases h), fun _ => ⟨fun c hc h => ?_, fun c hc h => ?_, List.Perm.refl _⟩⟩
    · rw [List.Perm.eq_nil hc] at h; exact h
    · rw [List.Perm.eq_nil hc] at h; exact h
  · have hl : 0 < mid.length := List.length_pos_iff.mpr h0
    rw [if_neg (by omega)]
    have hd : dec (pre.length + mid.length) = some (pre.length + (mid.length - 1)) := by
      unfold dec; rw [if_neg (by omega)]; congr 1; omega
    rw [hd]; simp only [Option.bind_eq_bind, Option.bind_some]
    rcases List.eq_nil_or_concat mid with rfl | ⟨q, x, hqx⟩
    · exact absurd rfl h0
    rw [List.concat_eq_append] at hqx
    subst hqx
    have hfx : Falling lt [x] := List.pairwise_singleton _ _
    by_cases hq : q = []
    · subst hq
      rw [if_pos (by simp)]
      refine ⟨[x], false, by simp, fun h => (by cases h), fun _ => ⟨fun c hc => ?_, fun c hc => ?_, List.Perm.refl _⟩⟩
      · exact falling_max hlt _ c hfx (same_of_perm hc)
      · exact sorted_min hlt _ c (List.pairwise_singleton _ _) (same_of_perm hc)
    · have hql : 0 < q.length := List.length_pos_iff.mpr hq
      rw [if_neg (by simp; exact hq)]
      have := nextLoop_ok hlt hc pre post (pre.length + (q ++ [x]).length - pre.length + 1) q [x] hq (by simp) hfx
        (by simp; omega)
      simpa using this

/-! ### the previous arrangement -/

theorem flip_strict (hlt : StrictWeak lt) : StrictWeak (fun x y => lt y x) :=
  ⟨fun a b h => hlt.asymm b a h, fun a b c h => (hlt.trans_neg c b a h).symm⟩

theorem findLess_eq (a : List α) (x : α) : ∀ (fuel j : Nat), findLess lt a x fuel j = findGreater (fun x y => lt y x) a x fuel j
  | 0, _ => rfl
  | fuel + 1, j => by
    unfold findLess findGreater
    refine congrArg _ (funext fun j' => congrArg _ (funext fun y => ?_))
    rw [findLess_eq a x fuel j']

theorem prevLoop_eq (c : Cat) (f l : Nat) : ∀ (fuel : Nat) (a : List α) (i : Nat),
    prevLoop lt c f l fuel a i = nextLoop (fun x y => lt y x) c f l fuel a i
  | 0, _, _ => rfl
  | fuel + 1, a, i => by
    unfold prevLoop nextLoop
    show (dec i >>= fun i' => a[i']? >>= fun x => a[i]? >>= fun y => _) = (dec i >>= fun i' => a[i']? >>= fun x => a[i]? >>= fun y => _)
    refine congrArg _ (funext fun i' => congrArg _ (funext fun x => congrArg _ (funext fun y => ?_)))
    rw [prevLoop_eq c f l fuel a i', findLess_eq]

theorem prev_eq (c : Cat) (a : List α) (f l : Nat) : prevPermutation lt c a f l = nextPermutation (fun x y => lt y x) c a f l := by
  unfold prevPermutation nextPermutation
  simp only [prevLoop_eq]

theorem lex_flip : ∀ (a b : List α), a.length = b.length → (LexLt (fun x y => lt y x) a b ↔ LexLt lt b a)
  | [], [], _ => by simp [LexLt]
  | [], _ :: _, h => by simp at h
  | _ :: _, [], h => by simp at h
  | x :: xs, y :: ys, h => by
    simp only [LexLt]
    rw [lex_flip xs ys (by simpa using h)]

/-- **C65.** `prev_permutation` is the mirror image: `true` means the range now holds the arrangement directly before the old one,
`false` that the old arrangement was the first and the range now holds the last. -/
theorem c65_prev_permutation (hlt : StrictWeak lt) {c : Cat} (hc : c ≠ .fwd) (pre mid post : List α) :
    ∃ d flag, prevPermutation lt c (pre ++ mid ++ post) pre.length (pre.length + mid.length) = some (pre ++ d ++ post, flag) ∧
      (flag = true → PrevArrangement lt mid d) ∧
      (flag = false → FirstArrangement lt mid ∧ LastArrangement lt d ∧ d.Perm mid) := by
  obtain ⟨d, flag, h1, h2, h3⟩ := c65_next_permutation (flip_strict hlt) hc pre mid post
  refine ⟨d, flag, by rw [prev_eq]; exact h1, fun hf => ?_, fun hf => ?_⟩
  · obtain ⟨g1, g2, g3⟩ := h2 hf
    refine ⟨g1, (lex_flip mid d g1.length_eq.symm).mp g2, fun c hc hlex hbc => ?_⟩
    exact g3 c hc ((lex_flip mid c hc.length_eq.symm).mpr hlex) ((lex_flip c d (hc.length_eq.trans g1.length_eq.symm)).mpr hbc)
  · obtain ⟨g1, g2, g3⟩ := h3 hf
    refine ⟨fun c hc hlex => ?_, fun c hc hlex => ?_, g3⟩
    · exact g1 c hc ((lex_flip mid c hc.length_eq.symm).mpr hlex)
    · exact g2 c (hc) ((lex_flip c d hc.length_eq).mpr hlex)

example : nextPermutation (fun x y : Nat => decide (x < y)) .ra [9, 1, 3, 2, 8] 1 4 = some ([9, 2, 1, 3, 8], true) ∧
    prevPermutation (fun x y : Nat => decide (x < y)) .bi [9, 2, 1, 3, 8] 1 4 = some ([9, 1, 3, 2, 8], true) ∧
    nextPermutation (fun x y : Nat => decide (x < y)) .bi [3, 2, 1] 0 3 = some ([1, 2, 3], false) := by
  decide

example : StrictWeak (fun x y : Nat => decide (x < y)) :=
  ⟨fun a b h => by simp at *; omega, fun a b c h => by simp at *; omega⟩

end Verif.Permute
