import Verif.RbMap3
import Verif.RbClient

/-!
# Lookups, iteration and writing through a reference
-/

namespace Verif.Rb

variable {K V : Type}

/-! ## lookups -/

theorem MapAt.lower {lt : K → K → Bool} (w : StrictWeak lt) {h : Heap (K × V)} {t : Tree0} {L : List (Elem K V)} (hM : MapAt lt h t L) (k : K) : lowerBound lt h t k = some (headOr t.hd (notBelow lt k L)) := by
  obtain ⟨⟨T, m, s, hi, hR, hb, hc⟩, hs⟩ := hM
  have hh : h t.hd = some ⟨T.ptr, _, _, true, none⟩ := s.place.header
  have h0 : 0 ∉ addrs T.items := s.sep'.zero
  rw [lowerBound, root, hh]
  simp only [Option.bind_eq_bind, Option.bind_some, Option.pure_def]
  rw [lowerLoop_ok w k T t.hd (t.count + 1) s.tree h0 (by rw [hi]; exact hs) (by rw [hi, ← hc]; omega), hi, firstP_eq_headOr]

theorem MapAt.upper {lt : K → K → Bool} (w : StrictWeak lt) {h : Heap (K × V)} {t : Tree0} {L : List (Elem K V)} (hM : MapAt lt h t L) (k : K) : upperBound lt h t k = some (headOr t.hd (above lt k L)) := by
  obtain ⟨⟨T, m, s, hi, hR, hb, hc⟩, hs⟩ := hM
  have hh : h t.hd = some ⟨T.ptr, _, _, true, none⟩ := s.place.header
  have h0 : 0 ∉ addrs T.items := s.sep'.zero
  rw [upperBound, root, hh]
  simp only [Option.bind_eq_bind, Option.bind_some, Option.pure_def]
  rw [upperLoop_ok w k T t.hd (t.count + 1) s.tree h0 (by rw [hi]; exact hs) (by rw [hi, ← hc]; omega), hi, firstP_eq_headOr]

/-- a sorted list around a key -/
theorem asc_split {lt : K → K → Bool} (w : StrictWeak lt) (k : K) : ∀ {L : List (Elem K V)}, Asc lt L → L = below lt k L ++ notBelow lt k L := by
  intro L
  induction L with
  | nil => intro _; rfl
  | cons x L ih =>
    intro hs
    have hx : ∀ y ∈ L, lt x.2.1 y.2.1 = true := fun y hy => List.rel_of_pairwise_cons hs hy
    cases hk : lt x.2.1 k with
    | true =>
      have := ih (List.Pairwise.of_cons hs)
      simp only [below, notBelow, List.filter_cons, hk, if_true, Bool.not_true, Bool.false_eq_true, if_false, List.cons_append] at this ⊢
      rw [← this]
    | false =>
      have : ∀ y ∈ L, lt y.2.1 k = false := by
        intro y hy
        by_contra h
        have h' : lt y.2.1 k = true := by simpa using h
        rw [lt_trans' w (hx y hy) h'] at hk
        exact absurd hk (by simp)
      have e1 : below lt k (x :: L) = [] := by
        rw [below, List.filter_eq_nil_iff]
        intro y hy
        rcases List.mem_cons.1 hy with rfl | hy
        · simp [hk]
        · simp [this y hy]
      have e2 : notBelow lt k (x :: L) = x :: L := by
        rw [notBelow, List.filter_eq_self]
        intro y hy
        rcases List.mem_cons.1 hy with rfl | hy
        · simp [hk]
        · simp [this y hy]
      rw [e1, e2]; rfl

/-- the elements not below `k`: at most one has the key, and it comes first -/
theorem notBelow_cases {lt : K → K → Bool} (w : StrictWeak lt) (k : K) {L : List (Elem K V)} (hs : Asc lt L) :
    (∃ x, same lt x.2.1 k = true ∧ notBelow lt k L = x :: above lt k L ∧ L.filter (fun x => same lt x.2.1 k) = [x] ∧ L = below lt k L ++ x :: above lt k L) ∨
    (has lt k L = false ∧ notBelow lt k L = above lt k L ∧ L.filter (fun x => same lt x.2.1 k) = [] ∧ L = below lt k L ++ above lt k L) := by
  have hspl := asc_split w k hs
  have hsame : L.filter (fun x => same lt x.2.1 k) = (notBelow lt k L).filter (fun x => !lt k x.2.1) := by
    rw [notBelow, List.filter_filter]
    apply List.filter_congr
    intro x _
    simp [same, Bool.and_comm]
  have hab : above lt k L = (notBelow lt k L).filter (fun x => lt k x.2.1) := by
    rw [notBelow, List.filter_filter, above]
    apply List.filter_congr
    intro x _
    cases hx : lt k x.2.1 with
    | false => simp
    | true => simp [w.asymm _ _ hx]
  have hs' : Asc lt (notBelow lt k L) := hs.sublist List.filter_sublist
  have hall : ∀ x ∈ notBelow lt k L, lt x.2.1 k = false := fun x hx => by simpa using (List.mem_filter.1 hx).2
  have tail : ∀ x R, notBelow lt k L = x :: R → ∀ y ∈ R, lt k y.2.1 = true := by
    intro x R e y hy
    rw [e] at hs'
    rcases w.trans_neg _ k _ (List.rel_of_pairwise_cons hs' hy) with h | h
    · rw [hall x (by rw [e]; simp)] at h; exact absurd h (by simp)
    · exact h
  cases hN : notBelow lt k L with
  | nil =>
    right
    have hf : L.filter (fun x => same lt x.2.1 k) = [] := by rw [hsame, hN]; rfl
    have ha : above lt k L = [] := by rw [hab, hN]; rfl
    refine ⟨?_, by rw [ha], hf, by rw [ha]; rw [hN] at hspl; exact hspl⟩
    rw [has, List.any_eq_false]
    intro x hx
    exact (List.filter_eq_nil_iff.1 hf) x hx
  | cons x R =>
    have hR := tail x R hN
    cases hx : lt k x.2.1 with
    | true =>
      right
      have ha : above lt k L = x :: R := by
        rw [hab, hN, List.filter_eq_self]
        intro y hy
        rcases List.mem_cons.1 hy with rfl | hy
        · exact hx
        · exact hR y hy
      have hf : L.filter (fun x => same lt x.2.1 k) = [] := by
        rw [hsame, hN, List.filter_eq_nil_iff]
        intro y hy
        rcases List.mem_cons.1 hy with rfl | hy
        · simp [hx]
        · simp [hR y hy]
      refine ⟨?_, by rw [ha], hf, by rw [ha, ← hN]; exact hspl⟩
      rw [has, List.any_eq_false]
      intro y hy
      exact (List.filter_eq_nil_iff.1 hf) y hy
    | false =>
      left
      have ha : above lt k L = R := by
        rw [hab, hN, List.filter_cons]
        simp only [hx, Bool.false_eq_true, if_false]
        rw [List.filter_eq_self]
        exact hR
      have hf : L.filter (fun x => same lt x.2.1 k) = [x] := by
        rw [hsame, hN, List.filter_cons]
        simp only [hx, Bool.not_false, if_true]
        rw [List.filter_eq_nil_iff.2]
        intro y hy
        simp [hR y hy]
      refine ⟨x, ?_, by rw [ha], hf, by rw [ha, ← hN]; exact hspl⟩
      have : lt x.2.1 k = false := hall x (by rw [hN]; simp)
      simp [same, hx, this]

theorem headOr_mem {hd : Ptr} {L : List (Elem K V)} (h : L ≠ []) : ∃ x ∈ L, headOr hd L = x.1 := by
  cases L with
  | nil => exact absurd rfl h
  | cons x L => exact ⟨x, by simp, rfl⟩

theorem MapAt.find {lt : K → K → Bool} (w : StrictWeak lt) {h : Heap (K × V)} {t : Tree0} {L : List (Elem K V)} (hM : MapAt lt h t L) (k : K) :
    find lt h t k = some (headOr t.hd (L.filter (fun x => same lt x.2.1 k))) := by
  rw [Rb.find, hM.lower w k]
  simp only [Option.bind_eq_bind, Option.bind_some]
  rcases notBelow_cases w k hM.2 with ⟨x, hx, h1, h2, h3⟩ | ⟨h0, h1, h2, h3⟩
  · rw [h1, h2]
    have hm : (x.1, x.2) ∈ L := by rw [h3]; simp
    have hne := hM.1.hd_ne hm
    have e : headOr t.hd (x :: above lt k L) = x.1 := rfl
    rw [e, if_neg hne, hM.1.key hm]
    have : lt k x.2.1 = false := by simp [same] at hx; exact hx.2
    simp only [Option.bind_some, this, Bool.false_eq_true, if_false]
    rfl
  · rw [h1, h2]
    cases ha : above lt k L with
    | nil => rw [show headOr t.hd ([] : List (Elem K V)) = t.hd from rfl, if_pos rfl]; rfl
    | cons x R =>
      have hxa : x ∈ above lt k L := by rw [ha]; simp
      have hm : (x.1, x.2) ∈ L := (List.mem_filter.1 hxa).1
      have hlt : lt k x.2.1 = true := by simpa [above] using (List.mem_filter.1 hxa).2
      rw [show headOr t.hd (x :: R) = x.1 from rfl, if_neg (hM.1.hd_ne hm), hM.1.key hm]
      simp only [Option.bind_some, hlt, if_true]
      rfl

/-! ## writing through a reference -/

theorem addrs_set {α : Type} {X Y : List (Ptr × α)} {a : Ptr} {v v' : α} : addrs (X ++ (a, v) :: Y) = addrs (X ++ (a, v') :: Y) := by simp [addrs]

theorem firstP_addrs {α : Type} {hd : Ptr} {X Y : List (Ptr × α)} (h : addrs X = addrs Y) : firstP hd X = firstP hd Y := by
  cases X with
  | nil =>
    cases Y with
    | nil => rfl
    | cons y Y => simp [addrs] at h
  | cons x X =>
    cases Y with
    | nil => simp [addrs] at h
    | cons y Y => simp only [addrs, List.map_cons, List.cons.injEq] at h; exact h.1

theorem lastP_addrs {α : Type} {hd : Ptr} {X Y : List (Ptr × α)} (h : addrs X = addrs Y) : lastP hd X = lastP hd Y := by
  apply firstP_addrs
  simp only [addrs, List.map_reverse] at h ⊢
  rw [h]

theorem rb_setVal {α : Type} {a : Ptr} {c : Bool} {l r : Shape α} {v v' : α} : ∀ {ctx : List (Frame α)} {m : Nat}, RB (plug ctx (.node a c l v r)) m → RB (plug ctx (.node a c l v' r)) m := by
  have base : ∀ {m : Nat}, RB (.node a c l v r) m → RB (.node a c l v' r) m := by
    intro m h
    cases h with
    | red h1 h2 h3 h4 => exact .red h1 h2 h3 h4
    | black h1 h2 => exact .black h1 h2
  have step : ∀ (ctx : List (Frame α)) (t t' : Shape α), (∀ m, RB t m → RB t' m) → t.isRed = t'.isRed → ∀ m, RB (plug ctx t) m → RB (plug ctx t') m := by
    intro ctx
    induction ctx with
    | nil => intro t t' h _ m; exact h m
    | cons f ctx ih =>
      intro t t' h hc m
      refine ih _ _ (fun m hm => ?_) (by rw [fill_isRed, fill_isRed]) m
      obtain ⟨fl, b, c, u, sib⟩ := f
      cases fl with
      | true =>
        rw [fill_isL rfl] at hm ⊢
        cases hm with
        | red h1 h2 h3 h4 => exact .red (h _ h1) h2 (by rw [← hc]; exact h3) h4
        | black h1 h2 => exact .black (h _ h1) h2
      | false =>
        rw [fill_isR rfl] at hm ⊢
        cases hm with
        | red h1 h2 h3 h4 => exact .red h1 (h _ h2) h3 (by rw [← hc]; exact h4)
        | black h1 h2 => exact .black h1 (h _ h2)
  intro ctx m h
  exact step ctx _ _ (fun m hm => base hm) rfl m h

theorem plug_isRed {α : Type} : ∀ (ctx : List (Frame α)) (t t' : Shape α), t.isRed = t'.isRed → (plug ctx t).isRed = (plug ctx t').isRed := by
  intro ctx
  induction ctx with
  | nil => intro t t' h; exact h
  | cons f ctx ih => intro t t' _; exact ih _ _ (by rw [fill_isRed, fill_isRed])

theorem Tr.set {α : Type} {h : Heap α} {t : Tree0} {X Y : List (Ptr × α)} {a : Ptr} {v v' : α} (hT : Tr h t (X ++ (a, v) :: Y)) :
    ∃ c, h a = some c ∧ c.val = some v ∧ Tr (put h a (some { c with val := some v' })) t (X ++ (a, v') :: Y) := by
  obtain ⟨T, m, s, hi, hR, hb, hc⟩ := hT
  obtain ⟨ctx, c, l, r, rfl, hX, hY⟩ := find_place T hi
  have s' := S.whole.2 s
  have sp := s'.sep'
  refine ⟨_, s'.cell, rfl, plug ctx (.node a c l v' r), m, ?_, ?_, rb_setVal hR, ?_, ?_⟩
  · rw [firstP_addrs (addrs_set (v := v') (v' := v)), lastP_addrs (addrs_set (v := v') (v' := v)), ← S.whole]
    have hsep := s'.sep
    simp only [Shape.items, addrs, List.map_append, List.map_cons, List.append_assoc, List.cons_append] at hsep
    have ha0 : a ≠ 0 := by
      intro e; subst e
      have := s'.cell
      rw [s'.null] at this
      exact absurd this (by simp)
    rw [List.nodup_cons, List.nodup_cons, List.nodup_append, List.nodup_cons] at hsep
    obtain ⟨_, n2, _, ⟨n4, _⟩, n6⟩ := hsep
    have hal : a ∉ addrs l.items := fun e => n6 a e a (by simp) rfl
    have har : a ∉ addrs r.items := fun e => n4 (List.mem_append.2 (Or.inl e))
    have hac : a ∉ ctxAddrs ctx := fun e => n4 (List.mem_append.2 (Or.inr e))
    have hah : t.hd ≠ a := fun e => n2 (by rw [e]; simp)
    refine ⟨⟨?_, s'.tree.2.1.congr (fun q hq => put_ne _ _ (fun e : q = a => hal (e ▸ hq))), s'.tree.2.2.congr (fun q hq => put_ne _ _ (fun e : q = a => har (e ▸ hq)))⟩,
      s'.place.congr (put_ne _ _ hah) (fun q hq => put_ne _ _ (fun e : q = a => hac (e ▸ hq))), ?_, by rw [put_ne _ _ (Ne.symm ha0)]; exact s'.null⟩
    · rw [put_same]
    · have := s'.nodup
      rw [plug_items] at this ⊢
      simpa [Shape.items, addrs] using this
  · rw [plug_items, hX, hY]; simp [Shape.items]
  · rw [plug_isRed ctx (.node a c l v' r) (.node a c l v r) rfl]; exact hb
  · rw [hc]; simp

theorem MapAt.setSecond {lt : K → K → Bool} {h : Heap (K × V)} {t : Tree0} {X Y : List (Elem K V)} {a : Ptr} {k : K} {u v : V} (hM : MapAt lt h t (X ++ (a, (k, u)) :: Y)) :
    ∃ h', setSecond h a v = some h' ∧ MapAt lt h' t (X ++ (a, (k, v)) :: Y) ∧ Off (owned t.hd (X ++ (a, (k, u)) :: Y)) h h' := by
  obtain ⟨c, h1, h2, h3⟩ := hM.1.set (v' := (k, v))
  refine ⟨_, ?_, ⟨h3, ?_⟩, ?_⟩
  · rw [Rb.setSecond, h1]; simp only [Option.bind_eq_bind, Option.bind_some, h2]; rfl
  · have := hM.2
    simp only [Asc, List.pairwise_append, List.pairwise_cons, List.mem_cons] at this ⊢
    obtain ⟨p1, ⟨p2, p3⟩, p4⟩ := this
    exact ⟨p1, ⟨p2, p3⟩, fun x hx y hy => by
      rcases hy with rfl | hy
      · exact p4 x hx (a, (k, u)) (Or.inl rfl)
      · exact p4 x hx y (Or.inr hy)⟩
  · intro q hq
    refine put_ne _ _ (fun e => hq ?_)
    rw [e]; simp [owned, addrs]

end Verif.Rb
