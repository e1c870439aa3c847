import Verif.Scan
import Verif.ScanSpec
import Verif.Props.InplaceMerge

/-!
# C68: `remove`, `unique`, `partition` and their copying versions
-/

namespace Verif.Scan
open Verif Verif.Sort Verif.Permute

variable {α : Type}

/-! ## slices -/

theorem slice_get (a : List α) {first last k : ℕ} (h : k < last - first) : (slice a first last)[k]? = a[first + k]? := by
  unfold slice
  rw [List.getElem?_take_of_lt h, List.getElem?_drop]

theorem slice_len (a : List α) {first last : ℕ} (h : last ≤ a.length) : (slice a first last).length = last - first := by
  unfold slice; simp; omega

theorem findIf_ok (p : α → Bool) (a : List α) : ∀ (src : List α) (fuel first : ℕ), src.length < fuel →
    (∀ k < src.length, a[first + k]? = src[k]?) →
    findIf p a (first + src.length) fuel first = some (first + (src.takeWhile (fun x => !p x)).length) := by
  intro src
  induction src with
  | nil => intro fuel first hf _; cases fuel with
    | zero => simp at hf
    | succ fuel => unfold findIf; simp
  | cons x src ih =>
    intro fuel first hf hs
    cases fuel with
    | zero => simp at hf
    | succ fuel =>
      unfold findIf
      rw [if_neg (by simp)]
      have h0 := hs 0 (by simp)
      simp only [Nat.add_zero, List.getElem?_cons_zero] at h0
      rw [h0]; simp only [Option.bind_eq_bind, Option.bind_some]
      cases hp : p x with
      | true => simp [hp, List.takeWhile]
      | false =>
        simp only [Bool.false_eq_true, if_false]
        have := ih fuel (first + 1) (by simpa using hf) (fun k hk => by
          have := hs (k + 1) (by simpa using hk)
          rw [show first + 1 + k = first + (k + 1) by omega, this]; simp)
        rw [show first + (x :: src).length = first + 1 + src.length by simp; omega, this]
        simp [List.takeWhile, hp]; omega

theorem overwritten_nil (a : List α) (d : ℕ) : Overwritten a d [] a := fun k => by
  rw [if_neg (by simp)]

/-- writing one element and then the rest -/
theorem overwritten_cons {a b : List α} {d : ℕ} {x : α} {w : List α} (hd : d < a.length) (h : Overwritten (a.set d x) (d + 1) w b) :
    Overwritten a d (x :: w) b := by
  intro k
  rw [h k]
  by_cases h1 : d + 1 ≤ k ∧ k < d + 1 + w.length
  · rw [if_pos h1, if_pos (by simp; omega)]
    obtain ⟨j, rfl⟩ := Nat.exists_eq_add_of_le h1.1
    rw [show d + 1 + j - (d + 1) = j by omega, show d + 1 + j - d = j + 1 by omega]; simp
  · rw [if_neg h1, List.getElem?_set]
    by_cases h2 : d = k
    · subst h2
      rw [if_pos rfl, if_pos hd, if_pos (by simp)]; simp
    · rw [if_neg h2, if_neg (by simp only [List.length_cons]; omega)]

theorem overwritten_len {a b w : List α} {d : ℕ} (h : Overwritten a d w b) (hd : d + w.length ≤ a.length) : b.length = a.length := by
  have e : ∀ k : ℕ, b[k]? = none ↔ a[k]? = none := by
    intro k; rw [h k]
    split_ifs with hk
    · constructor
      · intro hn; rw [List.getElem?_eq_none_iff] at hn ⊢; omega
      · intro hn; rw [List.getElem?_eq_none_iff] at hn; omega
    · exact Iff.rfl
  simp only [List.getElem?_eq_none_iff] at e
  have h1 := (e a.length).mpr (le_refl _)
  have h2 := (e b.length).mp (le_refl _)
  omega

theorem removeCopyIf_ok (p : α → Bool) : ∀ (src : List α) (fuel : ℕ) (a : List α) (first d : ℕ), src.length < fuel →
    (∀ k < src.length, a[first + k]? = src[k]?) → d ≤ first ∨ first + src.length ≤ d →
    d + (src.filter (fun x => !p x)).length ≤ a.length →
    ∃ b, removeCopyIf p (first + src.length) fuel a first d = some (b, d + (src.filter (fun x => !p x)).length) ∧
      Overwritten a d (src.filter (fun x => !p x)) b := by
  intro src
  induction src with
  | nil => intro fuel a first d hf _ _ _; cases fuel with
    | zero => simp at hf
    | succ fuel => exact ⟨a, by unfold removeCopyIf; simp, overwritten_nil a d⟩
  | cons x src ih =>
    intro fuel a first d hf hs hd hl
    cases fuel with
    | zero => simp at hf
    | succ fuel =>
      unfold removeCopyIf
      rw [if_neg (by simp)]
      have h0 := hs 0 (by simp)
      simp only [Nat.add_zero, List.getElem?_cons_zero] at h0
      rw [h0]; simp only [Option.bind_eq_bind, Option.bind_some]
      have e1 : first + (x :: src).length = first + 1 + src.length := by simp; omega
      have hs' : ∀ k < src.length, a[first + 1 + k]? = src[k]? := fun k hk => by
        have := hs (k + 1) (by simpa using hk)
        rw [show first + 1 + k = first + (k + 1) by omega, this]; simp
      simp only [List.length_cons] at hd hf
      cases hp : p x with
      | true =>
        simp only [List.filter, hp, Bool.not_true, Bool.false_eq_true, if_false] at hl ⊢
        rw [e1]
        exact ih fuel a (first + 1) d (by omega) hs' (by omega) hl
      | false =>
        simp only [List.filter, hp, Bool.not_false, if_true, List.length_cons] at hl ⊢
        rw [wr_ok (by omega)]; simp only [Option.bind_some]
        obtain ⟨b, hb, ho⟩ := ih fuel (a.set d x) (first + 1) (d + 1) (by omega)
          (fun k hk => by rw [List.getElem?_set, if_neg (by omega)]; exact hs' k hk) (by omega) (by simp; omega)
        refine ⟨b, ?_, overwritten_cons (by omega) ho⟩
        rw [show first + (src.length + 1) = first + 1 + src.length by omega, hb]; congr 2; omega

theorem overwritten_list (pre mid post w b : List α) (h : Overwritten (pre ++ mid ++ post) pre.length w b) (hw : w.length ≤ mid.length) :
    b = pre ++ w ++ mid.drop w.length ++ post := by
  obtain ⟨m1, m2, rfl, hm⟩ : ∃ m1 m2, mid = m1 ++ m2 ∧ m1.length = w.length := ⟨mid.take w.length, mid.drop w.length, by simp, by simpa using hw⟩
  rw [← hm, List.drop_left, List.append_assoc (pre ++ w)]
  rw [show pre ++ (m1 ++ m2) ++ post = pre ++ m1 ++ (m2 ++ post) by simp] at h
  apply List.ext_getElem?
  intro k
  rw [h k, app3, app3, hm]
  by_cases h1 : k < pre.length
  · rw [if_neg (by omega), if_pos h1, if_pos h1]
  · rw [if_neg h1, if_neg h1]
    by_cases h2 : k < pre.length + w.length
    · rw [if_pos (by omega), if_pos h2]
    · rw [if_neg (by omega), if_neg h2, if_neg h2]

theorem mid_get (pre mid post : List α) : ∀ k < mid.length, (pre ++ mid ++ post)[pre.length + k]? = mid[k]? := by
  intro k hk
  rw [app3, if_neg (by omega), if_pos (by omega)]
  congr 1; omega

theorem split_while (q : α → Bool) (l : List α) : l = l.takeWhile q ++ l.dropWhile q := (List.takeWhile_append_dropWhile).symm

theorem takeWhile_all (q : α → Bool) (l : List α) : ∀ x ∈ l.takeWhile q, q x = true := by
  induction l with
  | nil => simp
  | cons y l ih =>
    intro x hx
    rw [List.takeWhile_cons] at hx
    by_cases h : q y = true
    · rw [if_pos h] at hx
      rcases List.mem_cons.mp hx with rfl | hx
      · exact h
      · exact ih x hx
    · rw [if_neg h] at hx; simp at hx

theorem dropWhile_head (q : α → Bool) {l : List α} {x : α} {r : List α} (h : l.dropWhile q = x :: r) : q x = false := by
  induction l with
  | nil => simp at h
  | cons y l ih =>
    unfold List.dropWhile at h
    cases hy : q y with
    | true => rw [hy] at h; exact ih h
    | false => rw [hy] at h; simp only [List.cons.injEq] at h; rw [← h.1]; exact hy

/-- **C68, remove_if.**  The kept elements are moved, in their order, to the front of the range; the result is their end, and nothing
outside the range changes. -/
theorem c68_remove_if (p : α → Bool) (pre mid post : List α) :
    ∃ tail, removeIf p (pre ++ mid ++ post) pre.length (pre.length + mid.length) =
        some (pre ++ mid.filter (fun x => !p x) ++ tail ++ post, pre.length + (mid.filter (fun x => !p x)).length) ∧
      (mid.filter (fun x => !p x)).length + tail.length = mid.length := by
  have hlen : mid.length < (pre ++ mid ++ post).length + 1 := by simp; omega
  have hfl : (mid.filter (fun x => !p x)).length ≤ mid.length := List.length_filter_le _ _
  unfold removeIf
  rw [findIf_ok p _ mid _ _ hlen (mid_get pre mid post)]
  simp only [Option.bind_eq_bind, Option.bind_some]
  have hsp := split_while (fun x => !p x) mid
  have hall := takeWhile_all (fun x => !p x) mid
  generalize htw : mid.takeWhile (fun x => !p x) = tw at *
  have hdh : ∀ x r, mid.dropWhile (fun x => !p x) = x :: r → p x = true := fun x r h => by simpa using dropWhile_head _ h
  generalize mid.dropWhile (fun x => !p x) = dw at *
  have ftw : tw.filter (fun x => !p x) = tw := List.filter_eq_self.mpr hall
  cases dw with
  | nil =>
    rw [List.append_nil] at hsp; subst hsp
    rw [if_pos rfl, ftw]
    exact ⟨[], by simp, by simp⟩
  | cons x r =>
    have hx := hdh x r rfl
    subst hsp
    rw [if_neg (by simp)]
    have hf : (tw ++ x :: r).filter (fun x => !p x) = tw ++ r.filter (fun x => !p x) := by
      rw [List.filter_append, ftw]; simp [hx]
    have hfr : (r.filter (fun x => !p x)).length ≤ r.length := List.length_filter_le _ _
    obtain ⟨b, hb, ho⟩ := removeCopyIf_ok p r ((pre ++ (tw ++ x :: r) ++ post).length + 1) (pre ++ (tw ++ x :: r) ++ post)
      (pre.length + tw.length + 1) (pre.length + tw.length) (by simp; omega) (fun k hk => by
        have := mid_get (pre ++ tw ++ [x]) r post k hk
        simpa [Nat.add_assoc] using this) (by omega) (by simp; omega)
    rw [show pre.length + (tw ++ x :: r).length = pre.length + tw.length + 1 + r.length by simp; omega, hb, hf]
    have := overwritten_list (pre ++ tw) (x :: r) post _ b (by simpa using ho) (by simp; omega)
    refine ⟨(x :: r).drop (r.filter (fun x => !p x)).length, ?_, ?_⟩
    · rw [this]; simp [Nat.add_assoc]
    · simp; omega

/-- `remove_copy_if` for any destination that does not begin inside the source. -/
theorem c68_remove_copy_if (p : α → Bool) (a : List α) (first last d : ℕ) (h1 : first ≤ last) (h2 : last ≤ a.length)
    (hd : d ≤ first ∨ last ≤ d) (hl : d + ((slice a first last).filter (fun x => !p x)).length ≤ a.length) :
    ∃ b, removeCopyIf p last (a.length + 1) a first d = some (b, d + ((slice a first last).filter (fun x => !p x)).length) ∧
      Overwritten a d ((slice a first last).filter (fun x => !p x)) b := by
  have hs := slice_len a (first := first) h2
  have := removeCopyIf_ok p (slice a first last) (a.length + 1) a first d (by omega) (fun k hk => (slice_get a (by omega)).symm)
    (by omega) hl
  rwa [hs, show first + (last - first) = last by omega] at this

theorem find_eq (eq : α → α → Bool) (v : Ref α) (w : α) (a : List α) (last : ℕ) (hv : v.get a = some w) : ∀ (fuel first : ℕ),
    find eq v a last fuel first = findIf (fun x => eq x w) a last fuel first := by
  intro fuel
  induction fuel with
  | zero => intro first; rfl
  | succ fuel ih =>
    intro first
    unfold find findIf
    rw [hv]
    by_cases h : first = last
    · rw [if_pos h, if_pos h]
    · rw [if_neg h, if_neg h]
      cases a[first]? with
      | none => rfl
      | some x =>
        simp only [Option.bind_eq_bind, Option.bind_some, ih]
        cases eq x w <;> simp

theorem ref_set {v : Ref α} {w : α} {a : List α} (hv : v.get a = some w) {d : ℕ} {x : α} (hd : ∀ c, v = .cell c → c ≠ d) :
    v.get (a.set d x) = some w := by
  cases v with
  | copy u => exact hv
  | cell c =>
    have := hd c rfl
    simp only [Ref.get] at hv ⊢
    rw [List.getElem?_set, if_neg (by omega)]; exact hv

theorem removeCopy_eq (eq : α → α → Bool) (v : Ref α) (w : α) (last : ℕ) : ∀ (fuel : ℕ) (a : List α) (first d : ℕ), first ≤ last →
    v.get a = some w → (∀ c, v = .cell c → c < d ∨ d + (last - first) ≤ c) →
    removeCopy eq v last fuel a first d = removeCopyIf (fun x => eq x w) last fuel a first d := by
  intro fuel
  induction fuel with
  | zero => intros; rfl
  | succ fuel ih =>
    intro a first d hfl hv hc
    unfold removeCopy removeCopyIf
    rw [hv]
    by_cases h : first = last
    · rw [if_pos h, if_pos h]
    · rw [if_neg h, if_neg h]
      cases a[first]? with
      | none => rfl
      | some x =>
        simp only [Option.bind_eq_bind, Option.bind_some]
        cases eq x w with
        | true =>
          simp only [Bool.not_true, Bool.false_eq_true, if_false]
          exact ih a (first + 1) d (by omega) hv (fun c h => by have := hc c h; omega)
        | false =>
          simp only [Bool.not_false, if_true]
          by_cases hd : d < a.length
          · rw [wr_ok hd]; simp only [Option.bind_some]
            exact ih _ (first + 1) (d + 1) (by omega) (ref_set hv (fun c h => by have := hc c h; omega))
              (fun c h => by have := hc c h; omega)
          · unfold wr; rw [if_neg hd]; rfl

/-- **C68, remove.**  Removing a value — a constant, or a reference to an element outside the range — moves the elements different from it,
in their order, to the front of the range. -/
theorem c68_remove (eq : α → α → Bool) (v : Ref α) (w : α) (pre mid post : List α) (hv : v.get (pre ++ mid ++ post) = some w)
    (hc : ∀ c, v = .cell c → c < pre.length ∨ pre.length + mid.length ≤ c) :
    ∃ tail, remove eq v (pre ++ mid ++ post) pre.length (pre.length + mid.length) =
        some (pre ++ mid.filter (fun x => !eq x w) ++ tail ++ post, pre.length + (mid.filter (fun x => !eq x w)).length) ∧
      (mid.filter (fun x => !eq x w)).length + tail.length = mid.length := by
  have h := c68_remove_if (fun x => eq x w) pre mid post
  rw [show remove eq v (pre ++ mid ++ post) pre.length (pre.length + mid.length) =
      removeIf (fun x => eq x w) (pre ++ mid ++ post) pre.length (pre.length + mid.length) from ?_]
  · exact h
  · unfold remove removeIf
    rw [find_eq eq v w _ _ hv]
    have hf := findIf_ok (fun x => eq x w) (pre ++ mid ++ post) mid ((pre ++ mid ++ post).length + 1) pre.length (by simp; omega)
      (mid_get pre mid post)
    rw [hf]; simp only [Option.bind_eq_bind, Option.bind_some]
    have hle : (mid.takeWhile (fun x => !eq x w)).length ≤ mid.length := (List.takeWhile_sublist _).length_le
    by_cases h : pre.length + (mid.takeWhile (fun x => !eq x w)).length = pre.length + mid.length
    · rw [if_pos h, if_pos h]
    · rw [if_neg h, if_neg h]
      exact removeCopy_eq eq v w _ _ _ _ _ (by omega) hv (fun c hh => by have := hc c hh; omega)

/-- Why the reference must not point into the range: asked to remove the value of its own first element, `1`, from `1 2 1 3`, the code
keeps a `1`, because it overwrites the element the reference points to. -/
theorem c68_remove_alias_defect :
    remove (fun a b : ℕ => a == b) (.cell 0) [1, 2, 1, 3] 0 4 = some ([2, 1, 3, 3], 3) := by decide

/-! ## unique -/

theorem collapse_nil (eq : α → α → Bool) : collapse eq [] = [] := by unfold collapse; rfl
theorem collapse_cons (eq : α → α → Bool) (x : α) (l : List α) : collapse eq (x :: l) = x :: collapse eq (l.dropWhile (eq x)) := by
  rw [collapse]

theorem dropWhile_le (q : α → Bool) (l : List α) : (l.dropWhile q).length ≤ l.length := (List.dropWhile_sublist q).length_le

theorem collapse_le (eq : α → α → Bool) : ∀ (n : ℕ) (l : List α), l.length ≤ n → (collapse eq l).length ≤ l.length := by
  intro n
  induction n with
  | zero => intro l h; rw [List.length_eq_zero_iff.mp (by omega : l.length = 0), collapse_nil]
  | succ n ih =>
    intro l h
    cases l with
    | nil => rw [collapse_nil]
    | cons x l =>
      have := dropWhile_le (eq x) l
      simp only [List.length_cons] at h
      have := ih (l.dropWhile (eq x)) (by omega)
      rw [collapse_cons]; simp only [List.length_cons]; omega

theorem uniqueFwd_ok (eq : α → α → Bool) : ∀ (src : List α) (fuel : ℕ) (a : List α) (first d : ℕ) (r : α), src.length < fuel →
    (∀ k < src.length, a[first + k]? = src[k]?) → d < first ∨ first + src.length ≤ d → a[d]? = some r →
    d + 1 + (collapse eq (src.dropWhile (eq r))).length ≤ a.length →
    ∃ b, uniqueFwd eq (first + src.length) fuel a first d = some (b, d + 1 + (collapse eq (src.dropWhile (eq r))).length) ∧
      Overwritten a (d + 1) (collapse eq (src.dropWhile (eq r))) b := by
  intro src
  induction src with
  | nil => intro fuel a first d r hf _ _ _ _; cases fuel with
    | zero => simp at hf
    | succ fuel => exact ⟨a, by unfold uniqueFwd; simp [collapse_nil], by simpa [collapse_nil] using overwritten_nil a (d + 1)⟩
  | cons x src ih =>
    intro fuel a first d r hf hs hd hr hl
    cases fuel with
    | zero => simp at hf
    | succ fuel =>
      unfold uniqueFwd
      rw [if_neg (by simp)]
      have h0 := hs 0 (by simp)
      simp only [Nat.add_zero, List.getElem?_cons_zero] at h0
      rw [h0, hr]; simp only [Option.bind_eq_bind, Option.bind_some]
      have hs' : ∀ k < src.length, a[first + 1 + k]? = src[k]? := fun k hk => by
        have := hs (k + 1) (by simpa using hk)
        rw [show first + 1 + k = first + (k + 1) by omega, this]; simp
      simp only [List.length_cons] at hd hf ⊢
      rw [show first + (src.length + 1) = first + 1 + src.length by omega]
      cases hp : eq r x with
      | true =>
        have e : (x :: src).dropWhile (eq r) = src.dropWhile (eq r) := by rw [List.dropWhile_cons, if_pos hp]
        rw [e] at hl ⊢
        simp only [Bool.not_true, Bool.false_eq_true, if_false]
        exact ih fuel a (first + 1) d r (by omega) hs' (by omega) hr hl
      | false =>
        have e : (x :: src).dropWhile (eq r) = x :: src := by rw [List.dropWhile_cons, if_neg (by simp [hp])]
        rw [e, collapse_cons, List.length_cons] at hl
        rw [e, collapse_cons, List.length_cons]
        simp only [Bool.not_false, if_true]
        rw [wr_ok (by omega)]; simp only [Option.bind_some]
        obtain ⟨b, hb, ho⟩ := ih fuel (a.set (d + 1) x) (first + 1) (d + 1) x (by omega)
          (fun k hk => by rw [List.getElem?_set, if_neg (by omega)]; exact hs' k hk) (by omega)
          (by rw [List.getElem?_set, if_pos rfl, if_pos (by omega)]) (by simp; omega)
        refine ⟨b, ?_, overwritten_cons (by omega) ho⟩
        rw [hb]; congr 2; omega

theorem uniqueOut_eq (eq : α → α → Bool) : ∀ (src : List α) (fuel : ℕ) (a : List α) (first d : ℕ) (r : α), src.length < fuel →
    (∀ k < src.length, a[first + k]? = src[k]?) → d < first ∨ first + src.length ≤ d →
    d + 1 + (collapse eq (src.dropWhile (eq r))).length ≤ a.length →
    ∃ b, uniqueOut eq (first + src.length) fuel a first d r = some (b, d + 1 + (collapse eq (src.dropWhile (eq r))).length) ∧
      Overwritten a (d + 1) (collapse eq (src.dropWhile (eq r))) b := by
  intro src
  induction src with
  | nil => intro fuel a first d r hf _ _ _; cases fuel with
    | zero => simp at hf
    | succ fuel => exact ⟨a, by unfold uniqueOut; simp [collapse_nil], by simpa [collapse_nil] using overwritten_nil a (d + 1)⟩
  | cons x src ih =>
    intro fuel a first d r hf hs hd hl
    cases fuel with
    | zero => simp at hf
    | succ fuel =>
      unfold uniqueOut
      rw [if_neg (by simp)]
      have h0 := hs 0 (by simp)
      simp only [Nat.add_zero, List.getElem?_cons_zero] at h0
      rw [h0]; simp only [Option.bind_eq_bind, Option.bind_some]
      have hs' : ∀ k < src.length, a[first + 1 + k]? = src[k]? := fun k hk => by
        have := hs (k + 1) (by simpa using hk)
        rw [show first + 1 + k = first + (k + 1) by omega, this]; simp
      simp only [List.length_cons] at hd hf ⊢
      rw [show first + (src.length + 1) = first + 1 + src.length by omega]
      cases hp : eq r x with
      | true =>
        have e : (x :: src).dropWhile (eq r) = src.dropWhile (eq r) := by rw [List.dropWhile_cons, if_pos hp]
        rw [e] at hl ⊢
        simp only [Bool.not_true, Bool.false_eq_true, if_false]
        exact ih fuel a (first + 1) d r (by omega) hs' (by omega) hl
      | false =>
        have e : (x :: src).dropWhile (eq r) = x :: src := by rw [List.dropWhile_cons, if_neg (by simp [hp])]
        rw [e, collapse_cons, List.length_cons] at hl
        rw [e, collapse_cons, List.length_cons]
        simp only [Bool.not_false, if_true]
        rw [wr_ok (by omega)]; simp only [Option.bind_some]
        obtain ⟨b, hb, ho⟩ := ih fuel (a.set (d + 1) x) (first + 1) (d + 1) x (by omega)
          (fun k hk => by rw [List.getElem?_set, if_neg (by omega)]; exact hs' k hk) (by omega) (by simp; omega)
        refine ⟨b, ?_, overwritten_cons (by omega) ho⟩
        rw [hb]; congr 2; omega

/-- **C68, unique_copy.**  Either version copies the range with its runs of equal elements collapsed, to any destination that does not
begin inside the source (or begins where the source begins). -/
theorem c68_unique_copy (eq : α → α → Bool) (out : Bool) (a : List α) (first last d : ℕ) (h1 : first ≤ last) (h2 : last ≤ a.length)
    (hd : d ≤ first ∨ last ≤ d) (hl : d + (collapse eq (slice a first last)).length ≤ a.length) :
    ∃ b, uniqueCopy eq out a first last d = some (b, d + (collapse eq (slice a first last)).length) ∧
      Overwritten a d (collapse eq (slice a first last)) b := by
  have hs := slice_len a (first := first) h2
  have hg : ∀ k < (slice a first last).length, a[first + k]? = (slice a first last)[k]? := fun k hk => (slice_get a (by omega)).symm
  unfold uniqueCopy
  by_cases h : first = last
  · subst h
    rw [if_pos rfl]
    rw [List.length_eq_zero_iff.mp (by omega : (slice a first first).length = 0), collapse_nil]
    exact ⟨a, rfl, overwritten_nil a d⟩
  · rw [if_neg h]
    generalize slice a first last = src at *
    cases src with
    | nil => simp at hs; omega
    | cons x src =>
      rw [collapse_cons, List.length_cons] at *
      have h0 := hg 0 (by simp)
      simp only [Nat.add_zero, List.getElem?_cons_zero] at h0
      rw [h0]; simp only [Option.bind_eq_bind, Option.bind_some]
      rw [wr_ok (by omega)]; simp only [Option.bind_some]
      have hs' : ∀ k < src.length, (a.set d x)[first + 1 + k]? = src[k]? := fun k hk => by
        have := hg (k + 1) (by simpa using hk)
        rw [List.getElem?_set, if_neg (by omega), show first + 1 + k = first + (k + 1) by omega, this]; simp
      have hlast : last = first + 1 + src.length := by omega
      cases out with
      | true =>
        rw [if_pos rfl]
        obtain ⟨b, hb, ho⟩ := uniqueOut_eq eq src ((a.set d x).length + 1) (a.set d x) (first + 1) d x (by simp; omega) hs' (by omega)
          (by simp; omega)
        refine ⟨b, ?_, overwritten_cons (by omega) ho⟩
        rw [hlast, hb]; congr 2; omega
      | false =>
        rw [if_neg (by simp)]
        obtain ⟨b, hb, ho⟩ := uniqueFwd_ok eq src ((a.set d x).length + 1) (a.set d x) (first + 1) d x (by simp; omega) hs' (by omega)
          (by rw [List.getElem?_set, if_pos rfl, if_pos (by omega)]) (by simp; omega)
        refine ⟨b, ?_, overwritten_cons (by omega) ho⟩
        rw [hlast, hb]; congr 2; omega

/-- `adjacent_find` splits the range before the first pair of equal neighbours -/
theorem adjLoop_ok (eq : α → α → Bool) (a : List α) : ∀ (src : List α) (fuel first : ℕ) (x : α), src.length < fuel →
    a[first]? = some x → (∀ k < src.length, a[first + 1 + k]? = src[k]?) →
    (∃ u y z v, x :: src = u ++ y :: z :: v ∧ eq y z = true ∧ collapse eq (x :: src) = u ++ collapse eq (y :: z :: v) ∧
      (∀ (s t : α) (u' v' : List α), u ++ [y] = u' ++ s :: t :: v' → eq s t = false) ∧
      adjLoop eq a (first + 1 + src.length) fuel first (first + 1) = some (first + u.length)) ∨
    (collapse eq (x :: src) = x :: src ∧ (∀ (s t : α) (u' v' : List α), x :: src = u' ++ s :: t :: v' → eq s t = false) ∧
      adjLoop eq a (first + 1 + src.length) fuel first (first + 1) = some (first + 1 + src.length)) := by
  intro src
  induction src with
  | nil => intro fuel first x hf _ _; cases fuel with
    | zero => simp at hf
    | succ fuel =>
      right
      refine ⟨by rw [collapse_cons]; simp [collapse_nil], fun s t u' v' h => ?_, by unfold adjLoop; simp⟩
      have := congrArg List.length h; simp at this; omega
  | cons y src ih =>
    intro fuel first x hf hx hs
    cases fuel with
    | zero => simp at hf
    | succ fuel =>
      have h0 := hs 0 (by simp)
      simp only [Nat.add_zero, List.getElem?_cons_zero] at h0
      have hs' : ∀ k < src.length, a[first + 1 + 1 + k]? = src[k]? := fun k hk => by
        have := hs (k + 1) (by simpa using hk)
        rw [show first + 1 + 1 + k = first + 1 + (k + 1) by omega, this]; simp
      unfold adjLoop
      rw [if_neg (by simp), hx, h0]; simp only [Option.bind_eq_bind, Option.bind_some]
      simp only [List.length_cons] at hf ⊢
      cases hp : eq x y with
      | true =>
        left
        refine ⟨[], x, y, src, rfl, hp, rfl, fun s t u' v' h => ?_, by simp⟩
        have := congrArg List.length h; simp at this; omega
      | false =>
        have e : collapse eq (x :: y :: src) = x :: collapse eq (y :: src) := by
          rw [collapse_cons, List.dropWhile_cons, if_neg (by simp [hp])]
        have key : ∀ l : List α, (∀ (s t : α) (u' v' : List α), y :: l = u' ++ s :: t :: v' → eq s t = false) →
            ∀ (s t : α) (u' v' : List α), x :: y :: l = u' ++ s :: t :: v' → eq s t = false := by
          intro l hl s t u' v' h
          cases u' with
          | nil => simp only [List.nil_append, List.cons.injEq] at h; rw [← h.1, ← h.2.1]; exact hp
          | cons z u' => simp only [List.cons_append, List.cons.injEq] at h; exact hl s t u' v' h.2
        simp only [Bool.false_eq_true, if_false]
        rw [show first + 1 + (src.length + 1) = first + 1 + 1 + src.length by omega]
        rcases ih fuel (first + 1) y (by omega) h0 hs' with ⟨u, y', z, v, h1, h2, h3, h4, h5⟩ | ⟨h3, h4, h5⟩
        · left
          refine ⟨x :: u, y', z, v, by rw [h1]; rfl, h2, by rw [e, h3]; rfl, ?_, by rw [h5]; simp; omega⟩
          have : ∃ l, u ++ [y'] = y :: l := by
            cases u with
            | nil => simp only [List.nil_append, List.cons.injEq] at h1; exact ⟨[], by simp [h1.1]⟩
            | cons q u => simp only [List.cons_append, List.cons.injEq] at h1; exact ⟨u ++ [y'], by simp [h1.1]⟩
          obtain ⟨l, hl⟩ := this
          rw [List.cons_append, hl]
          rw [hl] at h4
          exact key l h4
        · right
          exact ⟨by rw [e, h3], key src h4, h5⟩

/-- **C68, unique.**  The runs of equal elements are collapsed in place: the first elements of the runs are moved, in their order, to the
front of the range; the result is their end, and nothing outside the range changes. -/
theorem c68_unique (eq : α → α → Bool) (pre mid post : List α) :
    ∃ tail, unique eq (pre ++ mid ++ post) pre.length (pre.length + mid.length) =
        some (pre ++ collapse eq mid ++ tail ++ post, pre.length + (collapse eq mid).length) ∧
      (collapse eq mid).length + tail.length = mid.length := by
  unfold unique adjacentFind
  cases mid with
  | nil =>
    rw [if_pos (by simp)]; simp only [Option.bind_eq_bind, Option.bind_some]
    unfold uniqueCopy; rw [if_pos rfl, collapse_nil]
    exact ⟨[], by simp, by simp⟩
  | cons x src =>
    rw [if_neg (by simp)]
    have hmg := mid_get pre (x :: src) post
    have hx := hmg 0 (by simp)
    simp only [Nat.add_zero, List.getElem?_cons_zero] at hx
    rcases adjLoop_ok eq (pre ++ x :: src ++ post) src ((pre ++ x :: src ++ post).length + 1) pre.length x (by simp; omega) hx
      (fun k hk => by
        have := hmg (k + 1) (by simpa using hk)
        rw [show pre.length + 1 + k = pre.length + (k + 1) by omega, this]; simp) with ⟨u, y, z, v, h1, h2, h3, h4, h5⟩ | ⟨h3, h4, h5⟩
    · rw [show pre.length + (x :: src).length = pre.length + 1 + src.length by simp; omega, h5]
      simp only [Option.bind_eq_bind, Option.bind_some]
      have hlen := congrArg List.length h1
      simp only [List.length_cons, List.length_append] at hlen
      rw [h3, h1]
      have hsl : slice (pre ++ (u ++ y :: z :: v) ++ post) (pre.length + u.length) (pre.length + 1 + src.length) = y :: z :: v := by
        unfold slice
        rw [show pre ++ (u ++ y :: z :: v) ++ post = (pre ++ u) ++ (y :: z :: v ++ post) by simp,
          show pre.length + u.length = (pre ++ u).length by simp, List.drop_left,
          show pre.length + 1 + src.length - (pre ++ u).length = (y :: z :: v).length by simp; omega, List.take_left]
      have hle := collapse_le eq _ (y :: z :: v) (le_refl _)
      obtain ⟨b, hb, ho⟩ := c68_unique_copy eq false (pre ++ (u ++ y :: z :: v) ++ post) (pre.length + u.length) (pre.length + 1 + src.length)
        (pre.length + u.length) (by omega) (by simp; omega) (by omega) (by rw [hsl]; simp at hle ⊢; omega)
      rw [hsl] at hb ho
      have := overwritten_list (pre ++ u) (y :: z :: v) post _ b (by simpa using ho) hle
      rw [hb, this]
      refine ⟨(y :: z :: v).drop (collapse eq (y :: z :: v)).length, ?_, ?_⟩
      · simp [Nat.add_assoc]
      · simp at hle ⊢; omega
    · rw [show pre.length + (x :: src).length = pre.length + 1 + src.length by simp; omega, h5]
      simp only [Option.bind_eq_bind, Option.bind_some]
      unfold uniqueCopy
      rw [if_pos rfl, h3]
      exact ⟨[], by simp; omega, by simp⟩

/-- **C68, adjacent_find.**  The result is the first of two equal neighbours with no such pair before it, or the end when there is none. -/
theorem c68_adjacent_find (eq : α → α → Bool) (pre mid post : List α) :
    (∃ u y z v, mid = u ++ y :: z :: v ∧ eq y z = true ∧ (∀ (s t : α) (u' v' : List α), u ++ [y] = u' ++ s :: t :: v' → eq s t = false) ∧
      adjacentFind eq (pre ++ mid ++ post) pre.length (pre.length + mid.length) = some (pre.length + u.length)) ∨
    ((∀ (s t : α) (u' v' : List α), mid = u' ++ s :: t :: v' → eq s t = false) ∧
      adjacentFind eq (pre ++ mid ++ post) pre.length (pre.length + mid.length) = some (pre.length + mid.length)) := by
  unfold adjacentFind
  cases mid with
  | nil =>
    right
    exact ⟨fun s t u' v' h => by have := congrArg List.length h; simp at this, by rw [if_pos (by simp)]⟩
  | cons x src =>
    rw [if_neg (by simp)]
    have hmg := mid_get pre (x :: src) post
    have hx := hmg 0 (by simp)
    simp only [Nat.add_zero, List.getElem?_cons_zero] at hx
    rw [show pre.length + (x :: src).length = pre.length + 1 + src.length by simp; omega]
    rcases adjLoop_ok eq (pre ++ x :: src ++ post) src ((pre ++ x :: src ++ post).length + 1) pre.length x (by simp; omega) hx
      (fun k hk => by
        have := hmg (k + 1) (by simpa using hk)
        rw [show pre.length + 1 + k = pre.length + (k + 1) by omega, this]; simp) with ⟨u, y, z, v, h1, h2, h3, h4, h5⟩ | ⟨h3, h4, h5⟩
    · exact Or.inl ⟨u, y, z, v, h1, h2, h4, h5⟩
    · exact Or.inr ⟨h4, h5⟩

/-! ## partition -/

theorem partDown_ok (p : α → Bool) (pre : List α) (x : α) : ∀ (n : ℕ) (m post : List α) (fuel : ℕ), m.length = n → n < fuel →
    (∃ m1 y m2, m = m1 ++ y :: m2 ∧ p y = true ∧ (∀ z ∈ m2, p z = false) ∧
      partDown p (pre ++ x :: m ++ post) pre.length fuel (pre.length + m.length) = some (pre.length + 1 + m1.length)) ∨
    ((∀ z ∈ m, p z = false) ∧ partDown p (pre ++ x :: m ++ post) pre.length fuel (pre.length + m.length) = some pre.length) := by
  intro n
  induction n with
  | zero =>
    intro m post fuel hm hf
    rw [List.length_eq_zero_iff] at hm; subst hm
    obtain ⟨fuel, rfl⟩ : ∃ k, fuel = k + 1 := ⟨fuel - 1, by omega⟩
    right
    exact ⟨by simp, by unfold partDown; simp⟩
  | succ n ih =>
    intro m post fuel hm hf
    rcases List.eq_nil_or_concat m with rfl | ⟨m', w, rfl⟩
    · simp at hm
    rw [List.concat_eq_append] at *
    simp only [List.length_append, List.length_cons, List.length_nil] at hm
    obtain ⟨fuel, rfl⟩ : ∃ k, fuel = k + 1 := ⟨fuel - 1, by omega⟩
    unfold partDown
    rw [if_neg (by simp)]
    have hg := get_list (pre ++ x :: m') post w
    rw [show (pre ++ x :: m').length = pre.length + (m' ++ [w]).length by simp,
      show pre ++ x :: m' ++ w :: post = pre ++ x :: (m' ++ [w]) ++ post by simp] at hg
    rw [hg]; simp only [Option.bind_eq_bind, Option.bind_some]
    cases hw : p w with
    | true =>
      left
      refine ⟨m', w, [], rfl, hw, by simp, ?_⟩
      simp; omega
    | false =>
      simp only [Bool.not_false, if_true]
      have hd : dec (pre.length + (m' ++ [w]).length) = some (pre.length + m'.length) := by
        unfold dec; rw [if_neg (by simp)]; simp; 
      rw [hd]; simp only [Option.bind_some]
      rw [show pre ++ x :: (m' ++ [w]) ++ post = pre ++ x :: m' ++ (w :: post) by simp]
      rcases ih m' (w :: post) fuel (by omega) (by omega) with ⟨m1, y, m2, h1, h2, h3, h4⟩ | ⟨h3, h4⟩
      · left
        refine ⟨m1, y, m2 ++ [w], by rw [h1]; simp, h2, fun z hz => ?_, h4⟩
        rcases List.mem_append.mp hz with hz | hz
        · exact h3 z hz
        · rw [List.mem_singleton.mp hz]; exact hw
      · right
        refine ⟨fun z hz => ?_, h4⟩
        rcases List.mem_append.mp hz with hz | hz
        · exact h3 z hz
        · rw [List.mem_singleton.mp hz]; exact hw

theorem partition_ok (p : α → Bool) : ∀ (n : ℕ) (pre mid post : List α), mid.length ≤ n →
    ∃ T F, partition p (n + 1) (pre ++ mid ++ post) pre.length (pre.length + mid.length) = some (pre ++ (T ++ F) ++ post, pre.length + T.length) ∧
      (T ++ F).Perm mid ∧ (∀ x ∈ T, p x = true) ∧ (∀ x ∈ F, p x = false) := by
  intro n
  induction n with
  | zero =>
    intro pre mid post h
    rw [List.length_eq_zero_iff.mp (by omega : mid.length = 0)]
    refine ⟨[], [], ?_, List.Perm.refl _, by simp, by simp⟩
    unfold partition findIf; simp
  | succ n ih =>
    intro pre mid post h
    unfold partition
    rw [findIf_ok (fun x => !p x) _ mid _ _ (by simp; omega) (mid_get pre mid post)]
    simp only [Option.bind_eq_bind, Option.bind_some, Bool.not_not]
    have hsp := split_while (fun x => p x) mid
    have hall := takeWhile_all (fun x => p x) mid
    have hdh : ∀ x r, mid.dropWhile (fun x => p x) = x :: r → p x = false := fun x r h => by simpa using dropWhile_head _ h
    generalize mid.takeWhile (fun x => p x) = tw at *
    generalize mid.dropWhile (fun x => p x) = dw at *
    cases dw with
    | nil =>
      rw [List.append_nil] at hsp; subst hsp
      rw [if_pos rfl]
      exact ⟨mid, [], by simp, by simp, hall, by simp⟩
    | cons x m =>
      have hx := hdh x m rfl
      subst hsp
      simp only [List.length_append, List.length_cons] at h
      rw [if_neg (by simp)]
      have hd : dec (pre.length + (tw ++ x :: m).length) = some ((pre ++ tw).length + m.length) := by
        unfold dec; rw [if_neg (by simp)]; simp; omega
      rw [hd]; simp only [Option.bind_some]
      rw [show pre ++ (tw ++ x :: m) ++ post = (pre ++ tw) ++ x :: m ++ post by simp,
        show pre.length + tw.length = (pre ++ tw).length by simp]
      rcases partDown_ok p (pre ++ tw) x m.length m post ((pre ++ tw ++ x :: m ++ post).length + 1) rfl (by simp; omega) with
        ⟨m1, y, m2, rfl, h2, h3, h4⟩ | ⟨h3, h4⟩
      · rw [h4]; simp only [Option.bind_some]
        rw [if_neg (by omega)]
        have hsw := swp_list (pre ++ tw) m1 (m2 ++ post) x y
        rw [show pre ++ tw ++ x :: (m1 ++ y :: m2) ++ post = pre ++ tw ++ x :: (m1 ++ y :: (m2 ++ post)) by simp]
        rw [hsw]; simp only [Option.bind_some]
        obtain ⟨T, F, e, q1, q2, q3⟩ := ih (pre ++ tw ++ [y]) m1 (x :: m2 ++ post) (by simp at h; omega)
        rw [show (pre ++ tw ++ [y]).length = (pre ++ tw).length + 1 by simp; omega] at e
        simp only [List.append_assoc, List.cons_append, List.nil_append] at e ⊢
        rw [e]
        refine ⟨tw ++ y :: T, F ++ x :: m2, by simp; omega, ?_, ?_, ?_⟩
        · rw [show tw ++ y :: T ++ (F ++ x :: m2) = tw ++ (y :: (T ++ F) ++ x :: m2) by simp]
          refine List.Perm.append_left tw ?_
          have : (y :: (T ++ F) ++ x :: m2).Perm (y :: m1 ++ x :: m2) := (List.Perm.cons y q1).append_right _
          refine this.trans ?_
          rw [List.cons_append]
          refine (List.Perm.cons y (List.perm_middle)).trans ?_
          refine (List.Perm.swap x y _).trans ?_
          exact List.Perm.cons x List.perm_middle.symm
        · intro z hz
          rcases List.mem_append.mp hz with hz | hz
          · exact hall z hz
          · rcases List.mem_cons.mp hz with rfl | hz
            · exact h2
            · exact q2 z hz
        · intro z hz
          rcases List.mem_append.mp hz with hz | hz
          · exact q3 z hz
          · rcases List.mem_cons.mp hz with rfl | hz
            · exact hx
            · exact h3 z hz
      · rw [h4]; simp only [Option.bind_some]
        rw [if_pos trivial]
        refine ⟨tw, x :: m, by simp, by simp, hall, fun z hz => ?_⟩
        rcases List.mem_cons.mp hz with rfl | hz
        · exact hx
        · exact h3 z hz

/-- **C68, partition.**  The range is rearranged so that the elements satisfying the predicate come first; the result is the border;
nothing outside the range changes. -/
theorem c68_partition (p : α → Bool) (pre mid post : List α) :
    ∃ T F, partition p (mid.length + 1) (pre ++ mid ++ post) pre.length (pre.length + mid.length) =
        some (pre ++ (T ++ F) ++ post, pre.length + T.length) ∧
      (T ++ F).Perm mid ∧ (∀ x ∈ T, p x = true) ∧ (∀ x ∈ F, p x = false) :=
  partition_ok p mid.length pre mid post (le_refl _)

theorem partitionCopy_ok (p : α → Bool) : ∀ (src : List α) (fuel : ℕ) (a : List α) (first rt rf : ℕ), src.length < fuel →
    (∀ k < src.length, a[first + k]? = src[k]?) → rt + (src.filter p).length ≤ first ∨ first + src.length ≤ rt →
    rf + (src.filter (fun x => !p x)).length ≤ first ∨ first + src.length ≤ rf →
    rt + (src.filter p).length ≤ rf ∨ rf + (src.filter (fun x => !p x)).length ≤ rt →
    rt + (src.filter p).length ≤ a.length → rf + (src.filter (fun x => !p x)).length ≤ a.length →
    ∃ b, partitionCopy p (first + src.length) fuel a first rt rf =
        some (b, rt + (src.filter p).length, rf + (src.filter (fun x => !p x)).length) ∧
      ∀ k, b[k]? = if rt ≤ k ∧ k < rt + (src.filter p).length then (src.filter p)[k - rt]?
        else if rf ≤ k ∧ k < rf + (src.filter (fun x => !p x)).length then (src.filter (fun x => !p x))[k - rf]? else a[k]? := by
  intro src
  induction src with
  | nil => intro fuel a first rt rf hf _ _ _ _ _ _; cases fuel with
    | zero => simp at hf
    | succ fuel => exact ⟨a, by unfold partitionCopy; simp, fun k => by rw [if_neg (by simp), if_neg (by simp)]⟩
  | cons x src ih =>
    intro fuel a first rt rf hf hs h1 h2 h3 h4 h5
    cases fuel with
    | zero => simp at hf
    | succ fuel =>
      unfold partitionCopy
      rw [if_neg (by simp)]
      have h0 := hs 0 (by simp)
      simp only [Nat.add_zero, List.getElem?_cons_zero] at h0
      rw [h0]; simp only [Option.bind_eq_bind, Option.bind_some]
      have hs' : ∀ k < src.length, a[first + 1 + k]? = src[k]? := fun k hk => by
        have := hs (k + 1) (by simpa using hk)
        rw [show first + 1 + k = first + (k + 1) by omega, this]; simp
      simp only [List.length_cons] at *
      rw [show first + (src.length + 1) = first + 1 + src.length by omega]
      cases hp : p x with
      | true =>
        simp only [List.filter, hp, Bool.not_true, List.length_cons] at *
        simp only [if_true]
        rw [wr_ok (by omega)]; simp only [Option.bind_some]
        obtain ⟨b, hb, ho⟩ := ih fuel (a.set rt x) (first + 1) (rt + 1) rf (by omega)
          (fun k hk => by rw [List.getElem?_set, if_neg (by omega)]; exact hs' k hk) (by omega) (by omega) (by omega) (by simp; omega)
          (by simp; omega)
        refine ⟨b, by rw [hb]; congr 3; omega, fun k => ?_⟩
        rw [ho k]
        by_cases hk : k = rt
        · subst hk
          rw [if_neg (by omega), if_neg (by omega), if_pos (by omega), List.getElem?_set, if_pos rfl, if_pos (by omega)]; simp
        · rw [List.getElem?_set, if_neg (show ¬ rt = k from fun h => hk h.symm)]
          by_cases hk2 : rt + 1 ≤ k ∧ k < rt + 1 + (src.filter p).length
          · rw [if_pos hk2, if_pos (by omega)]
            obtain ⟨j, rfl⟩ := Nat.exists_eq_add_of_le hk2.1
            rw [show rt + 1 + j - (rt + 1) = j by omega, show rt + 1 + j - rt = j + 1 by omega]; simp
          · rw [if_neg hk2, if_neg (show ¬ (rt ≤ k ∧ k < rt + ((src.filter p).length + 1)) by omega)]
      | false =>
        simp only [List.filter, hp, Bool.not_false, List.length_cons] at *
        simp only [Bool.false_eq_true, if_false]
        rw [wr_ok (by omega)]; simp only [Option.bind_some]
        obtain ⟨b, hb, ho⟩ := ih fuel (a.set rf x) (first + 1) rt (rf + 1) (by omega)
          (fun k hk => by rw [List.getElem?_set, if_neg (by omega)]; exact hs' k hk) (by omega) (by omega) (by omega) (by simp; omega)
          (by simp; omega)
        refine ⟨b, by rw [hb]; congr 3; omega, fun k => ?_⟩
        rw [ho k]
        by_cases hk0 : rt ≤ k ∧ k < rt + (src.filter p).length
        · rw [if_pos hk0, if_pos hk0]
        rw [if_neg hk0, if_neg hk0]
        by_cases hk : k = rf
        · subst hk
          rw [if_neg (by omega), if_pos (by omega), List.getElem?_set, if_pos rfl, if_pos (by omega)]; simp
        · rw [List.getElem?_set, if_neg (show ¬ rf = k from fun h => hk h.symm)]
          by_cases hk2 : rf + 1 ≤ k ∧ k < rf + 1 + (src.filter (fun x => !p x)).length
          · rw [if_pos hk2, if_pos (by omega)]
            obtain ⟨j, rfl⟩ := Nat.exists_eq_add_of_le hk2.1
            rw [show rf + 1 + j - (rf + 1) = j by omega, show rf + 1 + j - rf = j + 1 by omega]; simp
          · rw [if_neg hk2, if_neg (show ¬ (rf ≤ k ∧ k < rf + ((src.filter (fun x => !p x)).length + 1)) by omega)]

/-- **C68, partition_copy.**  The elements satisfying the predicate go, in order, to the first destination, the others to the second; the
results are the two ends; nothing else changes.  (Source and destinations do not overlap.) -/
theorem c68_partition_copy (p : α → Bool) (a : List α) (first last rt rf : ℕ) (h1 : first ≤ last) (h2 : last ≤ a.length) (T F : List α)
    (hT : T = (slice a first last).filter p) (hF : F = (slice a first last).filter (fun x => !p x))
    (d1 : rt + T.length ≤ first ∨ last ≤ rt) (d2 : rf + F.length ≤ first ∨ last ≤ rf) (d3 : rt + T.length ≤ rf ∨ rf + F.length ≤ rt)
    (l1 : rt + T.length ≤ a.length) (l2 : rf + F.length ≤ a.length) :
    ∃ b, partitionCopy p last (a.length + 1) a first rt rf = some (b, rt + T.length, rf + F.length) ∧
      ∀ k, b[k]? = if rt ≤ k ∧ k < rt + T.length then T[k - rt]? else if rf ≤ k ∧ k < rf + F.length then F[k - rf]? else a[k]? := by
  subst hT hF
  have hs := slice_len a (first := first) h2
  have hl : last = first + (slice a first last).length := by omega
  have := partitionCopy_ok p (slice a first last) (a.length + 1) a first rt rf (by omega) (fun k hk => (slice_get a (by omega)).symm)
    (by omega) (by omega) d3 l1 l2
  rwa [← hl] at this

-- the hypotheses are met by concrete cases
example : removeIf (fun x : ℕ => x == 3) [9, 1, 3, 2, 3, 3, 4, 9] 1 7 = some ([9, 1, 2, 4, 3, 3, 4, 9], 4) := by decide
example : remove (fun a b : ℕ => a == b) (.cell 7) [9, 1, 3, 2, 3, 3, 4, 3] 1 7 = some ([9, 1, 2, 4, 3, 3, 4, 3], 4) := by decide
example : unique (fun a b : ℕ => a == b) [5, 5, 1, 2, 2, 2, 3, 3, 1, 5] 1 9 = some ([5, 5, 1, 2, 3, 1, 3, 3, 1, 5], 6) := by decide
example : collapse (fun a b : ℕ => a == b) [5, 1, 2, 2, 2, 3, 3, 1] = [5, 1, 2, 3, 1] := by simp [collapse_cons, collapse_nil, List.dropWhile]
example : uniqueCopy (fun a b : ℕ => a == b) true [5, 5, 1, 1, 0, 0, 0] 0 4 4 = some ([5, 5, 1, 1, 5, 1, 0], 6) := by decide
example : partition (fun x : ℕ => x % 2 == 0) 8 [7, 1, 2, 3, 4, 6, 5, 9] 0 8 = some ([6, 4, 2, 3, 1, 7, 5, 9], 3) := by decide
example : partitionCopy (fun x : ℕ => x % 2 == 0) 4 9 [1, 2, 3, 4, 0, 0, 0, 0] 0 4 6 = some ([1, 2, 3, 4, 2, 4, 1, 3], 6, 8) := by decide
example : adjacentFind (fun a b : ℕ => a == b) [3, 3, 1, 2, 2, 2] 1 6 = some 3 := by decide

end Verif.Scan
