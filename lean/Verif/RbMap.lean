import Verif.RbUnlink2
import Verif.RbSpec

/-!
# Iteration, search, insertion and removal in the tree
-/

namespace Verif.Rb

variable {α : Type}

theorem firstP_eq_headOr {K V : Type} (hd : Ptr) (L : List (Elem K V)) : firstP hd L = headOr hd L := by cases L <;> rfl

/-- the heap contains a red-black tree with the elements `L` in order below the header -/
def Tr (h : Heap α) (t : Tree0) (L : List (Ptr × α)) : Prop :=
  ∃ T m, S h t.hd (firstP t.hd L) (lastP t.hd L) [] T ∧ T.items = L ∧ RB T m ∧ T.isRed = false ∧ t.count = L.length

/-! ## places -/

/-- every element of the tree is at some place -/
theorem find_place {a : Ptr} {v : α} : ∀ (T : Shape α) {X Y : List (Ptr × α)}, T.items = X ++ (a, v) :: Y →
    ∃ ctx c l r, T = plug ctx (.node a c l v r) ∧ X = before ctx ++ l.items ∧ Y = r.items ++ after ctx := by
  intro T
  induction T with
  | nil => intro X Y h; simp [Shape.items] at h
  | node b c l w r ihl ihr =>
    intro X Y h
    simp only [Shape.items] at h
    rcases List.append_eq_append_iff.1 h with ⟨as, h1, h2⟩ | ⟨bs, h1, h2⟩
    · -- X = l.items ++ as
      cases as with
      | nil =>
        simp only [List.append_nil, List.nil_append, List.cons.injEq, Prod.mk.injEq] at h1 h2
        obtain ⟨⟨rfl, rfl⟩, rfl⟩ := h2
        exact ⟨[], c, l, r, rfl, by simp [before, h1], by simp [after]⟩
      | cons a' as =>
        simp only [List.cons_append, List.cons.injEq] at h2
        obtain ⟨rfl, h2⟩ := h2
        obtain ⟨ctx, c', l', r', e1, e2, e3⟩ := ihr h2
        refine ⟨ctx ++ [⟨false, b, c, w, l⟩], c', l', r', by rw [plug_append, ← e1]; rfl, ?_, ?_⟩
        · rw [h1, e2]
          have : before (ctx ++ [⟨false, b, c, w, l⟩]) = l.items ++ [(b, w)] ++ before ctx := by
            clear e1 e2 e3
            induction ctx with
            | nil => simp [before]
            | cons f ctx ih => rw [List.cons_append, before, ih, before]; simp
          rw [this]; simp
        · rw [e3]
          have : after (ctx ++ [⟨false, b, c, w, l⟩]) = after ctx := by
            clear e1 e2 e3
            induction ctx with
            | nil => simp [after]
            | cons f ctx ih => rw [List.cons_append, after, ih, after]
          rw [this]
    · -- l.items = X ++ bs
      cases bs with
      | nil =>
        simp only [List.append_nil, List.nil_append, List.cons.injEq, Prod.mk.injEq] at h1 h2
        obtain ⟨⟨rfl, rfl⟩, rfl⟩ := h2
        exact ⟨[], c, l, r, rfl, by simp [before, h1], by simp [after]⟩
      | cons b' bs =>
        simp only [List.cons_append, List.cons.injEq] at h2
        obtain ⟨rfl, h2⟩ := h2
        obtain ⟨ctx, c', l', r', e1, e2, e3⟩ := ihl h1
        refine ⟨ctx ++ [⟨true, b, c, w, r⟩], c', l', r', by rw [plug_append, ← e1]; rfl, ?_, ?_⟩
        · rw [e2]
          have : before (ctx ++ [⟨true, b, c, w, r⟩]) = before ctx := by
            clear e1 e2 e3
            induction ctx with
            | nil => simp [before]
            | cons f ctx ih => rw [List.cons_append, before, ih, before]
          rw [this]
        · rw [h2, e3]
          have : after (ctx ++ [⟨true, b, c, w, r⟩]) = after ctx ++ (b, w) :: r.items := by
            clear e1 e2 e3
            induction ctx with
            | nil => simp [after]
            | cons f ctx ih => rw [List.cons_append, after, ih, after]; simp
          rw [this]; simp

/-! ## iterators -/

theorem items_ne {t : Shape α} (h : t ≠ .nil) : t.items ≠ [] := by
  cases t with
  | nil => exact absurd rfl h
  | node => simp [Shape.items]

theorem climbRight_up {h : Heap α} {hd lm rm : Ptr} : ∀ (ctx : List (Frame α)) (t : Shape α) (k : Nat), S h hd lm rm ctx t → after ctx = [] →
    climbRight h (k + ctx.length) t.ptr (parOf hd ctx) = climbRight h k (rootP ctx t.ptr) hd := by
  intro ctx
  induction ctx with
  | nil => intro t k _ _; rfl
  | cons f ctx ih =>
    intro t k s ha
    have hf : f.isL = false := by
      cases hf : f.isL
      · rfl
      · simp [after, hf] at ha
    have hfr := s.frame
    rw [hf] at hfr
    simp only [Bool.false_eq_true, if_false] at hfr
    rw [List.length_cons, show k + (ctx.length + 1) = (k + ctx.length) + 1 by omega, climbRight]
    simp only [parOf, hfr, Option.bind_eq_bind, Option.bind_some, if_true]
    have := ih (f.fill t) k (S.focus.1 s) (by rw [after, hf] at ha; simpa using ha)
    rw [fill_ptr] at this
    exact this

theorem climbRight_stop {h : Heap α} {hd lm rm : Ptr} : ∀ (ctx : List (Frame α)) (t : Shape α) (fuel : Nat), S h hd lm rm ctx t → t.ptr ≠ 0 → after ctx ≠ [] → ctx.length ≤ fuel →
    (∀ c, h t.ptr = some c → c.right ≠ parOf hd ctx) →
    ∃ n c, climbRight h fuel t.ptr (parOf hd ctx) = some (n, firstP hd (after ctx)) ∧ h n = some c ∧ c.right ≠ firstP hd (after ctx) := by
  intro ctx
  induction ctx with
  | nil => intro t fuel _ _ h; exact absurd rfl h
  | cons f ctx ih =>
    intro t fuel s t0 ha hk hc
    obtain ⟨k, rfl⟩ : ∃ k, fuel = k + 1 := ⟨fuel - 1, by simp at hk; omega⟩
    have hfr := s.frame
    cases hf : f.isL
    · rw [hf] at hfr
      simp only [Bool.false_eq_true, if_false] at hfr
      have ha' : after (f :: ctx) = after ctx := by simp [after, hf]
      rw [ha'] at ha ⊢
      have sf := S.focus.1 s
      have hrec := ih (f.fill t) k sf (by
        have := S.node0 (a := f.a) (c := f.red) (l := f.sib) (r := t) (v := f.v) (by rw [fill_isR hf] at sf; exact sf)
        rw [fill_ptr]; exact this) ha (by simp at hk; omega) (by
          intro c hcc
          rw [fill_ptr, hfr] at hcc
          rw [← Option.some.inj hcc]
          intro e
          simp only at e
          have hp := sf.sep'.par t.ptr (by
            rw [fill_isR hf]
            simp only [Shape.items, addrs, List.map_append, List.map_cons, List.mem_append, List.mem_cons]
            exact Or.inr (Or.inr (ptr_mem t0)))
          exact hp e)
      rw [fill_ptr] at hrec
      obtain ⟨n, c, e1, e2, e3⟩ := hrec
      refine ⟨n, c, ?_, e2, e3⟩
      rw [climbRight]
      simp only [parOf, hfr, Option.bind_eq_bind, Option.bind_some, if_true]
      exact e1
    · rw [hf] at hfr
      simp only [if_true] at hfr
      have hfirst : firstP hd (after (f :: ctx)) = f.a := by simp [after, hf, firstP]
      rw [hfirst]
      cases t with
      | nil => exact absurd rfl t0
      | node a c l v r =>
        refine ⟨a, _, ?_, s.cell, hc _ s.cell⟩
        rw [climbRight]
        simp only [parOf, hfr, Option.bind_eq_bind, Option.bind_some]
        rw [if_neg (fun e => s.sibNe t0 e.symm)]
        rfl

/-- **`++it`** goes to the next element, or to `end()` -/
theorem inc_ok {h : Heap α} {hd lm rm : Ptr} {ctx : List (Frame α)} {a : Ptr} {c : Bool} {l r : Shape α} {v : α} {fuel : Nat} (s : S h hd lm rm ctx (.node a c l v r))
    (hrm : rm = lastP hd (plug ctx (.node a c l v r)).items) (hf : (plug ctx (.node a c l v r)).items.length < fuel) : inc fuel h a = some (firstP hd (r.items ++ after ctx)) := by
  have hlen := ctx_length ctx (.node a c l v r)
  simp only [Shape.items, List.length_append, List.length_cons] at hlen
  have r0 : 0 ∉ addrs r.items := fun e => s.sep'.zero (by simp only [Shape.items, addrs, List.map_append, List.map_cons, List.mem_append, List.mem_cons]; exact Or.inr (Or.inr e))
  rw [inc, s.cell]
  simp only [Option.bind_eq_bind, Option.bind_some]
  by_cases hr : r = .nil
  · subst hr
    rw [if_neg (by simp [Shape.ptr])]
    simp only [Shape.items, List.nil_append]
    have hr0 : ∀ cc, h (Shape.node a c l v Shape.nil).ptr = some cc → cc.right ≠ parOf hd ctx := by
      intro cc hcc
      have : h a = some cc := hcc
      rw [s.cell] at this
      rw [← Option.some.inj this]
      exact Ne.symm s.sep'.par0
    by_cases ha : after ctx = []
    · -- the last element
      have hlast : rm = a := by
        rw [hrm, plug_items, ha]
        simp [Shape.items, lastP, firstP]
      obtain ⟨k, rfl⟩ : ∃ k, fuel = (k + 2) + ctx.length := ⟨fuel - ctx.length - 2, by omega⟩
      have hup := climbRight_up ctx (.node a c l v .nil) (k + 2) s ha
      have hup' : climbRight h (k + 2 + ctx.length) a (parOf hd ctx) = climbRight h (k + 2) (rootP ctx a) hd := hup
      rw [hup']
      have hhd := s.place.header
      have hhd' : h hd = some ⟨rootP ctx a, lm, rm, true, none⟩ := hhd
      rw [climbRight]
      simp only [hhd', Option.bind_eq_bind, Option.bind_some]
      by_cases hc : ctx = []
      · subst hc
        simp only [rootP, hlast, if_true]
        rw [climbRight, s.cell]
        simp only [Option.bind_eq_bind, Option.bind_some, Shape.ptr]
        rw [if_neg (Ne.symm s.sep'.hd0)]
        simp only [Option.pure_def, Option.bind_some, hhd', hlast]
        simp [ha, firstP]
      · have hne : rm ≠ rootP ctx a := by
          rw [hlast]
          intro e
          have hm := s.sep'.disj a (by simp [Shape.items, addrs])
          exact hc ((rootP_ne hm).1 e.symm)
        rw [if_neg hne]
        simp only [Option.pure_def, Option.bind_some]
        -- the root
        have hroot : ∃ cr, h (rootP ctx a) = some cr ∧ cr.right ≠ hd := by
          have sw := S.whole.1 s
          have hp : (plug ctx (Shape.node a c l v Shape.nil)).ptr = rootP ctx a := by rw [plug_ptr]; rfl
          cases hT : plug ctx (Shape.node a c l v Shape.nil) with
          | nil =>
            exfalso
            have := plug_items ctx (Shape.node a c l v Shape.nil)
            rw [hT] at this
            simp [Shape.items] at this
          | node b cb bl bv br =>
            rw [hT] at sw hp
            have : b = rootP ctx a := hp
            refine ⟨_, by rw [← this]; exact sw.cell, ?_⟩
            simp only
            intro e
            by_cases hb0 : br.ptr = 0
            · rw [hb0] at e; exact sw.sep'.hd0 e.symm
            · exact sw.sep'.hdA (by
                simp only [Shape.items, addrs, List.map_append, List.map_cons, List.mem_append, List.mem_cons]
                exact Or.inr (Or.inr (e ▸ ptr_mem hb0)))
        obtain ⟨cr, e1, e2⟩ := hroot
        rw [e1]
        simp only [Option.bind_some]
        rw [if_pos e2, ha]; rfl
    · obtain ⟨n, cn, e1, e2, e3⟩ := climbRight_stop ctx (.node a c l v .nil) fuel s s.node0 ha (by omega) hr0
      have e1' : climbRight h fuel a (parOf hd ctx) = some (n, firstP hd (after ctx)) := e1
      rw [e1']
      simp only [Option.bind_some, e2, Option.pure_def]
      rw [if_pos e3]
  · have hp0 : r.ptr ≠ 0 := fun e => hr ((ptr_zero r0).1 e)
    rw [if_pos hp0]
    have := first_items (hd := hd) fuel (S.right.1 s).tree hr r0 (by omega)
    rw [this, firstP_append (items_ne hr)]

theorem climbLeft_ok {h : Heap α} {hd lm rm : Ptr} : ∀ (ctx : List (Frame α)) (t : Shape α) (fuel : Nat), S h hd lm rm ctx t → t.ptr ≠ 0 → before ctx ≠ [] → ctx.length ≤ fuel →
    climbLeft h fuel t.ptr (parOf hd ctx) = some (lastP hd (before ctx)) := by
  intro ctx
  induction ctx with
  | nil => intro t fuel _ _ h; exact absurd rfl h
  | cons f ctx ih =>
    intro t fuel s t0 ha hk
    obtain ⟨k, rfl⟩ : ∃ k, fuel = k + 1 := ⟨fuel - 1, by simp at hk; omega⟩
    have hfr := s.frame
    cases hf : f.isL
    · rw [hf] at hfr
      simp only [Bool.false_eq_true, if_false] at hfr
      rw [climbLeft]
      simp only [parOf, hfr, Option.bind_eq_bind, Option.bind_some]
      rw [if_neg (s.sibNe t0)]
      simp [before, hf, lastP, firstP]
    · rw [hf] at hfr
      simp only [if_true] at hfr
      have hb : before (f :: ctx) = before ctx := by simp [before, hf]
      rw [hb] at ha ⊢
      have sf := S.focus.1 s
      have hrec := ih (f.fill t) k sf (by
        have := S.node0 (a := f.a) (c := f.red) (l := t) (r := f.sib) (v := f.v) (by rw [fill_isL hf] at sf; exact sf)
        rw [fill_ptr]; exact this) ha (by simp at hk; omega)
      rw [fill_ptr] at hrec
      rw [climbLeft]
      simp only [parOf, hfr, Option.bind_eq_bind, Option.bind_some, if_true]
      exact hrec

/-- **`--it`** goes to the previous element, if there is one -/
theorem dec_ok {h : Heap α} {hd lm rm : Ptr} {ctx : List (Frame α)} {a : Ptr} {c : Bool} {l r : Shape α} {v : α} {fuel : Nat} (s : S h hd lm rm ctx (.node a c l v r))
    (hroot : ctx = [] → c = false) (hf : (plug ctx (.node a c l v r)).items.length < fuel) (hne : before ctx ++ l.items ≠ []) : dec fuel h a = some (lastP hd (before ctx ++ l.items)) := by
  have hlen := ctx_length ctx (.node a c l v r)
  simp only [Shape.items, List.length_append, List.length_cons] at hlen
  have l0 : 0 ∉ addrs l.items := fun e => s.sep'.zero (by simp only [Shape.items, addrs, List.map_append, List.map_cons, List.mem_append, List.mem_cons]; exact Or.inl e)
  have am : a ∈ addrs (Shape.node a c l v r).items := by simp [Shape.items, addrs]
  obtain ⟨cp, hcp⟩ := s.place.par
  have hcond : ¬ (cp.parent = a ∧ c = true) := by
    rintro ⟨e1, e2⟩
    cases ctx with
    | nil => rw [hroot rfl] at e2; exact absurd e2 (by simp)
    | cons f ctx =>
      have hfr := s.frame
      rw [parOf] at hcp
      rw [hcp] at hfr
      rw [Option.some.inj hfr] at e1
      simp only at e1
      have sf := S.focus.1 s
      have := sf.sep'.par a (by
        cases hf : f.isL
        · rw [fill_isR hf]; simp [Shape.items, addrs]
        · rw [fill_isL hf]; simp [Shape.items, addrs])
      exact this e1.symm
  rw [dec, s.cell]
  simp only [Option.bind_eq_bind, Option.bind_some, hcp]
  rw [if_neg hcond]
  by_cases hl : l = .nil
  · subst hl
    rw [if_neg (by simp [Shape.ptr])]
    simp only [Shape.items, List.append_nil] at hne ⊢
    exact climbLeft_ok ctx _ fuel s s.node0 hne (by omega)
  · have hp0 : l.ptr ≠ 0 := fun e => hl ((ptr_zero l0).1 e)
    rw [if_pos hp0]
    have := last_items (hd := hd) fuel (S.left.1 s).tree hl l0 (by omega)
    rw [this, lastP, lastP, List.reverse_append, firstP_append (by simpa using items_ne hl)]

/-- **`--end()`** is the last element -/
theorem dec_end {h : Heap α} {hd lm rm : Ptr} {T : Shape α} {fuel : Nat} (s : S h hd lm rm [] T) (hne : T ≠ .nil) : dec fuel h hd = some rm := by
  have hh : h hd = some ⟨T.ptr, lm, rm, true, none⟩ := s.place.header
  cases T with
  | nil => exact absurd rfl hne
  | node a c l v r =>
    have hc := s.cell
    simp only [Shape.ptr] at hh
    rw [dec, hh]
    simp only [Option.bind_eq_bind, Option.bind_some, hc, parOf]
    simp

end Verif.Rb
