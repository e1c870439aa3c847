import Verif.RbMap7
import Verif.RbMulti

/-!
# Trees in which keys may occur several times
-/

namespace Verif.Rb

variable {K V : Type}

/-- the keys never descend -/
def Wk (lt : K → K → Bool) (L : List (Elem K V)) : Prop := L.Pairwise (fun a b => lt b.2.1 a.2.1 = false)

theorem lt_of_lt_le {lt : K → K → Bool} (w : StrictWeak lt) {a b c : K} (h1 : lt a b = true) (h2 : lt c b = false) : lt a c = true := by
  rcases w.trans_neg a c b h1 with h | h
  · exact h
  · rw [h2] at h; exact absurd h (by simp)

theorem lt_of_le_lt {lt : K → K → Bool} (w : StrictWeak lt) {a b c : K} (h1 : lt b a = false) (h2 : lt b c = true) : lt a c = true := by
  rcases w.trans_neg b a c h2 with h | h
  · rw [h1] at h; exact absurd h (by simp)
  · exact h

theorem le_trans'' {lt : K → K → Bool} (w : StrictWeak lt) {a b c : K} (h1 : lt b a = false) (h2 : lt c b = false) : lt c a = false := by
  by_contra hc
  rw [lt_of_lt_le w (by simpa using hc) h1] at h2
  exact absurd h2 (by simp)

theorem Wk.node {lt : K → K → Bool} {a : Ptr} {c : Bool} {l r : Shape (K × V)} {v : K × V} (h : Wk lt (Shape.node a c l v r).items) :
    Wk lt l.items ∧ Wk lt r.items ∧ (∀ x ∈ l.items, lt v.1 x.2.1 = false) ∧ (∀ x ∈ r.items, lt x.2.1 v.1 = false) ∧ (∀ x ∈ l.items, ∀ y ∈ r.items, lt y.2.1 x.2.1 = false) := by
  simp only [Wk, Shape.items, List.pairwise_append, List.pairwise_cons, List.mem_cons] at h ⊢
  obtain ⟨h1, ⟨h2, h3⟩, h4⟩ := h
  exact ⟨h1, h3, fun x hx => h4 x hx (a, v) (Or.inl rfl), fun x hx => h2 x hx, fun x hx y hy => h4 x hx y (Or.inr hy)⟩

/-- the descent of `lower_bound` and `find` -/
theorem lowerLoop_weak {lt : K → K → Bool} (w : StrictWeak lt) {h : Heap (K × V)} (key : K) : ∀ (t : Shape (K × V)) {par : Ptr} (y : Ptr) (fuel : Nat), Rep h par t → 0 ∉ addrs t.items → Wk lt t.items →
    t.items.length < fuel → lowerLoop lt h key fuel y t.ptr = some (firstP y (notBelow lt key t.items)) := by
  intro t
  induction t with
  | nil =>
    intro par y fuel _ _ _ hf
    obtain ⟨k, rfl⟩ : ∃ k, fuel = k + 1 := ⟨fuel - 1, by omega⟩
    simp [lowerLoop, Shape.ptr, notBelow, Shape.items, firstP]
  | node a c l v r ihl ihr =>
    intro par y fuel ht h0 hs hf
    simp only [Shape.items, List.length_append, List.length_cons] at hf
    obtain ⟨k, rfl⟩ : ∃ k, fuel = k + 1 := ⟨fuel - 1, by omega⟩
    have hA : ∀ q, q ∈ addrs (Shape.node a c l v r).items ↔ q ∈ addrs l.items ∨ q = a ∨ q ∈ addrs r.items := by intro q; simp [Shape.items, addrs]
    rw [hA] at h0
    simp only [not_or] at h0
    obtain ⟨s1, s2, s3, s4, s5⟩ := hs.node
    show lowerLoop lt h key (k + 1) y a = _
    rw [lowerLoop, if_neg (Ne.symm h0.2.1), keyAt_eq ht, ht.1]
    simp only [Option.bind_eq_bind, Option.bind_some]
    cases hv : lt v.1 key with
    | false =>
      simp only [if_true]
      rw [ihl a k ht.2.1 h0.1 s1 (by omega)]
      have : notBelow lt key (Shape.node a c l v r).items = notBelow lt key l.items ++ (a, v) :: notBelow lt key r.items := by
        simp [notBelow, Shape.items, hv]
      rw [this]
      cases hn : notBelow lt key l.items with
      | nil => rfl
      | cons x xs => rfl
    | true =>
      simp only [Bool.true_eq_false, if_false]
      rw [ihr y k ht.2.2 h0.2.2 s2 (by omega)]
      have hl : notBelow lt key l.items = [] := by
        rw [notBelow, List.filter_eq_nil_iff]
        intro x hx
        simp [lt_of_le_lt w (s3 x hx) hv]
      have : notBelow lt key (Shape.node a c l v r).items = notBelow lt key l.items ++ notBelow lt key r.items := by
        simp [notBelow, Shape.items, hv]
      rw [this, hl, List.nil_append]

/-- the descent of `upper_bound` -/
theorem upperLoop_weak {lt : K → K → Bool} (w : StrictWeak lt) {h : Heap (K × V)} (key : K) : ∀ (t : Shape (K × V)) {par : Ptr} (y : Ptr) (fuel : Nat), Rep h par t → 0 ∉ addrs t.items → Wk lt t.items →
    t.items.length < fuel → upperLoop lt h key fuel y t.ptr = some (firstP y (above lt key t.items)) := by
  intro t
  induction t with
  | nil =>
    intro par y fuel _ _ _ hf
    obtain ⟨k, rfl⟩ : ∃ k, fuel = k + 1 := ⟨fuel - 1, by omega⟩
    simp [upperLoop, Shape.ptr, above, Shape.items, firstP]
  | node a c l v r ihl ihr =>
    intro par y fuel ht h0 hs hf
    simp only [Shape.items, List.length_append, List.length_cons] at hf
    obtain ⟨k, rfl⟩ : ∃ k, fuel = k + 1 := ⟨fuel - 1, by omega⟩
    have hA : ∀ q, q ∈ addrs (Shape.node a c l v r).items ↔ q ∈ addrs l.items ∨ q = a ∨ q ∈ addrs r.items := by intro q; simp [Shape.items, addrs]
    rw [hA] at h0
    simp only [not_or] at h0
    obtain ⟨s1, s2, s3, s4, s5⟩ := hs.node
    show upperLoop lt h key (k + 1) y a = _
    rw [upperLoop, if_neg (Ne.symm h0.2.1), keyAt_eq ht, ht.1]
    simp only [Option.bind_eq_bind, Option.bind_some]
    cases hv : lt key v.1 with
    | true =>
      simp only [if_true]
      rw [ihl a k ht.2.1 h0.1 s1 (by omega)]
      have : above lt key (Shape.node a c l v r).items = above lt key l.items ++ (a, v) :: above lt key r.items := by
        simp [above, Shape.items, hv]
      rw [this]
      cases hn : above lt key l.items with
      | nil => rfl
      | cons x xs => rfl
    | false =>
      simp only [Bool.false_eq_true, if_false]
      rw [ihr y k ht.2.2 h0.2.2 s2 (by omega)]
      have hl : above lt key l.items = [] := by
        rw [above, List.filter_eq_nil_iff]
        intro x hx e
        rw [lt_of_lt_le w e (s3 x hx)] at hv
        exact absurd hv (by simp)
      have : above lt key (Shape.node a c l v r).items = above lt key l.items ++ above lt key r.items := by
        simp [above, Shape.items, hv]
      rw [this, hl, List.nil_append]

/-- the descent of `get_insert_unique_pos` -/
theorem posLoop_weak {lt : K → K → Bool} (w : StrictWeak lt) {h : Heap (K × V)} (key : K) : ∀ (t : Shape (K × V)) {par : Ptr} (y : Ptr) (d : Bool) (fuel : Nat), Rep h par t → 0 ∉ addrs t.items → Wk lt t.items →
    t.items.length < fuel → ∃ s, t = plug s .nil ∧ posLoop lt h key fuel y d t.ptr = some (parOf y s, sideOf d s) ∧ (∀ x ∈ before s, lt key x.2.1 = false) ∧ (∀ x ∈ after s, lt key x.2.1 = true) := by
  intro t
  induction t with
  | nil =>
    intro par y d fuel _ _ _ hf
    obtain ⟨k, rfl⟩ : ∃ k, fuel = k + 1 := ⟨fuel - 1, by omega⟩
    exact ⟨[], rfl, by simp [posLoop, Shape.ptr, parOf, sideOf], by simp [before], by simp [after]⟩
  | node a c l v r ihl ihr =>
    intro par y d fuel ht h0 hs hf
    simp only [Shape.items, List.length_append, List.length_cons] at hf
    obtain ⟨k, rfl⟩ : ∃ k, fuel = k + 1 := ⟨fuel - 1, by omega⟩
    have hA : ∀ q, q ∈ addrs (Shape.node a c l v r).items ↔ q ∈ addrs l.items ∨ q = a ∨ q ∈ addrs r.items := by intro q; simp [Shape.items, addrs]
    rw [hA] at h0
    simp only [not_or] at h0
    obtain ⟨s1, s2, s3, s4, s5⟩ := hs.node
    have hpar : ∀ (f : Frame (K × V)) (s : List (Frame (K × V))), parOf y (s ++ [f]) = parOf f.a s := by intro f s; cases s <;> rfl
    have hside : ∀ (f : Frame (K × V)) (s : List (Frame (K × V))), sideOf d (s ++ [f]) = sideOf f.isL s := by intro f s; cases s <;> rfl
    have hbef : ∀ (f : Frame (K × V)) (s : List (Frame (K × V))), before (s ++ [f]) = before [f] ++ before s := by
      intro f s
      induction s with
      | nil => simp [before]
      | cons g s ih =>
        show before (s ++ [f]) ++ _ = before [f] ++ (before s ++ _)
        rw [ih, List.append_assoc]
    have haft : ∀ (f : Frame (K × V)) (s : List (Frame (K × V))), after (s ++ [f]) = after s ++ after [f] := by
      intro f s
      induction s with
      | nil => simp [after]
      | cons g s ih =>
        show _ ++ after (s ++ [f]) = _ ++ after s ++ after [f]
        rw [ih, List.append_assoc]
    show ∃ s, _ ∧ posLoop lt h key (k + 1) y d a = _ ∧ _
    rw [posLoop, if_neg (Ne.symm h0.2.1), keyAt_eq ht, ht.1]
    simp only [Option.bind_eq_bind, Option.bind_some]
    cases hv : lt key v.1 with
    | true =>
      obtain ⟨s, e1, e2, e3, e4⟩ := ihl a true k ht.2.1 h0.1 s1 (by omega)
      refine ⟨s ++ [⟨true, a, c, v, r⟩], by rw [plug_append, ← e1]; rfl, ?_, ?_, ?_⟩
      · simp only [if_true]; rw [e2, hpar, hside]
      · rw [hbef]; intro x hx; exact e3 x (by simpa [before] using hx)
      · rw [haft]
        intro x hx
        rcases List.mem_append.1 hx with hx | hx
        · exact e4 x hx
        · simp only [after, List.append_nil, if_true, List.mem_cons] at hx
          rcases hx with rfl | hx
          · exact hv
          · exact lt_of_lt_le w hv (s4 x hx)
    | false =>
      obtain ⟨s, e1, e2, e3, e4⟩ := ihr a false k ht.2.2 h0.2.2 s2 (by omega)
      refine ⟨s ++ [⟨false, a, c, v, l⟩], by rw [plug_append, ← e1]; rfl, ?_, ?_, ?_⟩
      · simp only [Bool.false_eq_true, if_false]; rw [e2, hpar, hside]
      · rw [hbef]
        intro x hx
        rcases List.mem_append.1 hx with hx | hx
        · simp only [before, List.nil_append, Bool.false_eq_true, if_false, List.mem_append, List.mem_singleton] at hx
          rcases hx with hx | rfl
          · by_contra hc
            rw [lt_of_lt_le w (by simpa using hc) (s3 x hx)] at hv
            exact absurd hv (by simp)
          · exact hv
        · exact e3 x hx
      · rw [haft]; intro x hx; exact e4 x (by simpa [after] using hx)


/-! ## splitting a sorted list -/

theorem split_filter {β : Type} {R : β → β → Prop} {p : β → Bool} (hp : ∀ a b, R a b → p b = true → p a = true) : ∀ {L : List β}, L.Pairwise R → L = L.filter p ++ L.filter (fun x => !p x) := by
  intro L
  induction L with
  | nil => intro _; rfl
  | cons x L ih =>
    intro hs
    have hx : ∀ y ∈ L, R x y := fun y hy => List.rel_of_pairwise_cons hs hy
    cases hk : p x with
    | true =>
      have := ih (List.Pairwise.of_cons hs)
      simp only [List.filter_cons, hk, if_true, Bool.not_true, Bool.false_eq_true, if_false, List.cons_append]
      rw [← this]
    | false =>
      have hn : ∀ y ∈ L, p y = false := by
        intro y hy
        by_contra h
        rw [hp x y (hx y hy) (by simpa using h)] at hk
        exact absurd hk (by simp)
      have e1 : (x :: L).filter p = [] := by
        rw [List.filter_eq_nil_iff]
        intro y hy
        rcases List.mem_cons.1 hy with rfl | hy
        · simp [hk]
        · simp [hn y hy]
      have e2 : (x :: L).filter (fun x => !p x) = x :: L := by
        rw [List.filter_eq_self]
        intro y hy
        rcases List.mem_cons.1 hy with rfl | hy
        · simp [hk]
        · simp [hn y hy]
      rw [e1, e2]; rfl

/-- the elements not above a key, and those with the key -/
def notAbove (lt : K → K → Bool) (k : K) (L : List (Elem K V)) : List (Elem K V) := L.filter (fun x => !lt k x.2.1)
def equalTo (lt : K → K → Bool) (k : K) (L : List (Elem K V)) : List (Elem K V) := L.filter (fun x => same lt x.2.1 k)

theorem wk_below {lt : K → K → Bool} (w : StrictWeak lt) (k : K) {L : List (Elem K V)} (hs : Wk lt L) : L = below lt k L ++ notBelow lt k L :=
  split_filter (R := fun a b : Elem K V => lt b.2.1 a.2.1 = false) (p := fun x => lt x.2.1 k) (fun _ _ h1 h2 => lt_of_le_lt w h1 h2) hs

theorem wk_above {lt : K → K → Bool} (w : StrictWeak lt) (k : K) {L : List (Elem K V)} (hs : Wk lt L) : L = notAbove lt k L ++ above lt k L := by
  have := split_filter (p := fun x => !lt k x.2.1) (fun a b h1 h2 => by simp only [Bool.not_eq_true'] at h2 ⊢; exact le_trans'' w h1 h2) hs
  simpa [notAbove, above] using this

theorem wk_notBelow {lt : K → K → Bool} (w : StrictWeak lt) (k : K) {L : List (Elem K V)} (hs : Wk lt L) : notBelow lt k L = equalTo lt k L ++ above lt k L := by
  have h1 := wk_above w k (L := notBelow lt k L) (hs.sublist List.filter_sublist)
  conv_lhs => rw [h1]
  congr 1
  · rw [notAbove, notBelow, equalTo, List.filter_filter]
    apply List.filter_congr
    intro x _
    simp [same, Bool.and_comm]
  · rw [above, above, notBelow, List.filter_filter]
    apply List.filter_congr
    intro x _
    cases hk : lt k x.2.1 with
    | true => simp [w.asymm _ _ hk]
    | false => simp

theorem wk_split {lt : K → K → Bool} (w : StrictWeak lt) (k : K) {L : List (Elem K V)} (hs : Wk lt L) : L = below lt k L ++ (equalTo lt k L ++ above lt k L) := by
  rw [← wk_notBelow w k hs]; exact wk_below w k hs

theorem wk_without {lt : K → K → Bool} (w : StrictWeak lt) (k : K) {L : List (Elem K V)} (hs : Wk lt L) : without lt k L = below lt k L ++ above lt k L := by
  have he : (equalTo lt k L).filter (fun x => !same lt x.2.1 k) = [] := by
    rw [List.filter_eq_nil_iff]
    intro x hx
    simp [(List.mem_filter.1 hx).2]
  rw [without]
  conv_lhs => rw [wk_split w k hs]
  rw [List.filter_append, List.filter_append, he, List.nil_append, List.filter_eq_self.2 (fun y hy => by simp [below_not_same y hy]), List.filter_eq_self.2 (fun y hy => by simp [above_not_same y hy])]

theorem notAbove_eq {lt : K → K → Bool} {k : K} {A B : List (Elem K V)} (hA : ∀ x ∈ A, lt k x.2.1 = false) (hB : ∀ x ∈ B, lt k x.2.1 = true) : notAbove lt k (A ++ B) = A ∧ above lt k (A ++ B) = B := by
  constructor
  · rw [notAbove, List.filter_append, List.filter_eq_self.2 (fun x hx => by simp [hA x hx]), List.filter_eq_nil_iff.2 (fun x hx => by simp [hB x hx]), List.append_nil]
  · rw [above, List.filter_append, List.filter_eq_nil_iff.2 (fun x hx => by simp [hA x hx]), List.filter_eq_self.2 (fun x hx => by simp [hB x hx]), List.nil_append]

theorem wk_insert {lt : K → K → Bool} {A B : List (Elem K V)} {e : Elem K V} (hs : Wk lt (A ++ B)) (hA : ∀ x ∈ A, lt e.2.1 x.2.1 = false) (hB : ∀ x ∈ B, lt x.2.1 e.2.1 = false) : Wk lt (A ++ e :: B) := by
  rw [Wk, List.pairwise_append] at hs ⊢
  refine ⟨hs.1, List.pairwise_cons.2 ⟨hB, hs.2.1⟩, fun x hx y hy => ?_⟩
  rcases List.mem_cons.1 hy with rfl | hy
  · exact hA x hx
  · exact hs.2.2 x hx y hy

/-- the map with repeated keys in memory -/
def MultiAt (lt : K → K → Bool) (h : Heap (K × V)) (t : Tree0) (L : List (Elem K V)) : Prop := Tr h t L ∧ Wk lt L

theorem MultiAt.lower {lt : K → K → Bool} (w : StrictWeak lt) {h : Heap (K × V)} {t : Tree0} {L : List (Elem K V)} (hM : MultiAt lt h t L) (k : K) : lowerBound lt h t k = some (firstP t.hd (notBelow lt k L)) := by
  obtain ⟨⟨T, m, s, hi, hR, hb, hc⟩, hs⟩ := hM
  have hh : h t.hd = some ⟨T.ptr, firstP t.hd L, lastP t.hd L, true, none⟩ := s.place.header
  have h0 : 0 ∉ addrs T.items := s.sep'.zero
  rw [lowerBound, root, hh]
  simp only [Option.bind_eq_bind, Option.bind_some, Option.pure_def]
  rw [lowerLoop_weak w k T t.hd (t.count + 1) s.tree h0 (by rw [hi]; exact hs) (by rw [hi, ← hc]; omega), hi]

theorem MultiAt.upper {lt : K → K → Bool} (w : StrictWeak lt) {h : Heap (K × V)} {t : Tree0} {L : List (Elem K V)} (hM : MultiAt lt h t L) (k : K) : upperBound lt h t k = some (firstP t.hd (above lt k L)) := by
  obtain ⟨⟨T, m, s, hi, hR, hb, hc⟩, hs⟩ := hM
  have hh : h t.hd = some ⟨T.ptr, firstP t.hd L, lastP t.hd L, true, none⟩ := s.place.header
  have h0 : 0 ∉ addrs T.items := s.sep'.zero
  rw [upperBound, root, hh]
  simp only [Option.bind_eq_bind, Option.bind_some, Option.pure_def]
  rw [upperLoop_weak w k T t.hd (t.count + 1) s.tree h0 (by rw [hi]; exact hs) (by rw [hi, ← hc]; omega), hi]

theorem MultiAt.find {lt : K → K → Bool} (w : StrictWeak lt) {h : Heap (K × V)} {t : Tree0} {L : List (Elem K V)} (hM : MultiAt lt h t L) (k : K) : find lt h t k = some (firstP t.hd (equalTo lt k L)) := by
  rw [Rb.find, hM.lower w k]
  simp only [Option.bind_eq_bind, Option.bind_some]
  have hnb := wk_notBelow w k hM.2
  cases he : equalTo lt k L with
  | nil =>
    rw [he, List.nil_append] at hnb
    rw [hnb]
    cases ha : above lt k L with
    | nil => rw [show firstP t.hd ([] : List (Elem K V)) = t.hd from rfl, if_pos rfl]; rfl
    | cons x R =>
      have hxa : x ∈ above lt k L := by rw [ha]; simp
      have hm : (x.1, x.2) ∈ L := (List.mem_filter.1 hxa).1
      have hlt : lt k x.2.1 = true := by simpa [above] using (List.mem_filter.1 hxa).2
      rw [show firstP t.hd (x :: R) = x.1 from rfl, if_neg (hM.1.hd_ne hm), hM.1.key hm]
      simp [hlt, firstP]
  | cons x R =>
    have hxa : x ∈ equalTo lt k L := by rw [he]; simp
    have hm : (x.1, x.2) ∈ L := (List.mem_filter.1 hxa).1
    have hlt : lt k x.2.1 = false := by
      have := (List.mem_filter.1 hxa).2
      simp [same] at this
      exact this.2
    rw [hnb, he, List.cons_append, show firstP t.hd (x :: (R ++ above lt k L)) = x.1 from rfl, if_neg (hM.1.hd_ne hm), hM.1.key hm]
    simp [hlt, firstP]

variable {α : Type}

theorem Tr.ne_first {h : Heap α} {t : Tree0} {X Y Z : List (Ptr × α)} {a : Ptr} {v : α} (hT : Tr h t (X ++ ((a, v) :: Y ++ Z))) : a ≠ firstP t.hd Z := by
  cases Z with
  | nil => exact hT.hd_ne (v := v) (by simp)
  | cons z Z =>
    intro e
    have e' : a = z.1 := e
    have hn := hT.nodup
    rw [addrs, List.map_append, List.cons_append, List.map_cons, List.map_append, List.map_cons] at hn
    exact (List.nodup_cons.1 (List.nodup_append.1 hn).2.1).1 (by simp [e'])

theorem Tr.distance {h : Heap α} {t : Tree0} : ∀ (Y X Z : List (Ptr × α)) (fuel : Nat), Tr h t (X ++ (Y ++ Z)) → Y.length < fuel → distance h t fuel (firstP t.hd (Y ++ Z)) (firstP t.hd Z) = some Y.length := by
  intro Y
  induction Y with
  | nil =>
    intro X Z fuel hT hf
    obtain ⟨n, rfl⟩ : ∃ n, fuel = n + 1 := ⟨fuel - 1, by omega⟩
    rw [Rb.distance, List.nil_append, if_pos rfl]; rfl
  | cons y Y ih =>
    intro X Z fuel hT hf
    obtain ⟨n, rfl⟩ : ∃ n, fuel = n + 1 := ⟨fuel - 1, by omega⟩
    obtain ⟨a, v⟩ := y
    have hne := hT.ne_first
    have hinc := Tr.inc (X := X) (a := a) (v := v) (Y := Y ++ Z) hT (fuel := t.count + 1) (by omega)
    rw [Rb.distance, show firstP t.hd ((a, v) :: Y ++ Z) = a from rfl, if_neg hne, hinc]
    simp only [Option.bind_eq_bind, Option.bind_some]
    rw [ih (X ++ [(a, v)]) Z n (by simpa using hT) (by simp at hf; omega)]
    rfl

theorem Tr.walkTo {h : Heap α} {t : Tree0} : ∀ (Y X Z : List (Ptr × α)) (fuel : Nat), Tr h t (X ++ (Y ++ Z)) → Y.length < fuel → walkTo h t fuel (firstP t.hd (Y ++ Z)) (firstP t.hd Z) = some (Y.map (fun x => x.2)) := by
  intro Y
  induction Y with
  | nil =>
    intro X Z fuel hT hf
    obtain ⟨n, rfl⟩ : ∃ n, fuel = n + 1 := ⟨fuel - 1, by omega⟩
    rw [Rb.walkTo, List.nil_append, if_pos rfl]; rfl
  | cons y Y ih =>
    intro X Z fuel hT hf
    obtain ⟨n, rfl⟩ : ∃ n, fuel = n + 1 := ⟨fuel - 1, by omega⟩
    obtain ⟨a, v⟩ := y
    have hne := hT.ne_first
    have hinc := Tr.inc (X := X) (a := a) (v := v) (Y := Y ++ Z) hT (fuel := t.count + 1) (by omega)
    rw [Rb.walkTo, show firstP t.hd ((a, v) :: Y ++ Z) = a from rfl, if_neg hne, hT.deref (a := a) (v := v) (by simp), hinc]
    simp only [Option.bind_eq_bind, Option.bind_some]
    rw [ih (X ++ [(a, v)]) Z n (by simpa using hT) (by simp at hf; omega)]
    rfl

theorem Tr.position {h : Heap α} {t : Tree0} {X Y : List (Ptr × α)} (hT : Tr h t (X ++ Y)) : position h t (firstP t.hd Y) = some X.length := by
  rw [Rb.position, hT.begin]
  simp only [Option.bind_eq_bind, Option.bind_some]
  exact Tr.distance X [] Y (t.count + 1) hT (by rw [hT.count]; simp; omega)

/-- of two neighbours the first has no right child or the second no left child -/
theorem last_right {h : Heap α} {b : Ptr} {u : α} : ∀ (T : Shape α) {par : Ptr} {Z : List (Ptr × α)}, Rep h par T → T.items = Z ++ [(b, u)] → ∃ c, h b = some c ∧ c.right = 0 := by
  intro T
  induction T with
  | nil => intro par Z _ e; simp [Shape.items] at e
  | node a c l v r _ ihr =>
    intro par Z ht e
    cases r with
    | nil =>
      have e' : l.items ++ [(a, v)] = Z ++ [(b, u)] := e
      have := (List.append_inj' e' rfl).2
      simp only [List.cons.injEq, Prod.mk.injEq, and_true] at this
      rw [← this.1]
      exact ⟨_, ht.1, rfl⟩
    | node a' c' l' v' r' =>
      have hne : (Shape.node a' c' l' v' r').items ≠ [] := by simp [Shape.items]
      obtain ⟨W, x, hW⟩ : ∃ W x, (Shape.node a' c' l' v' r').items = W ++ [x] := ⟨_, _, (List.dropLast_append_getLast hne).symm⟩
      have e' : l.items ++ (a, v) :: (Shape.node a' c' l' v' r').items = Z ++ [(b, u)] := e
      rw [hW, show l.items ++ (a, v) :: (W ++ [x]) = (l.items ++ (a, v) :: W) ++ [x] by simp] at e'
      have := (List.append_inj' e' rfl).2
      simp only [List.cons.injEq, and_true] at this
      exact ihr ht.2.2 (by rw [hW, this])

theorem Tr.neighbours {h : Heap α} {t : Tree0} {X Y : List (Ptr × α)} {a b : Ptr} {v u : α} (hT : Tr h t ((X ++ [(b, u)]) ++ (a, v) :: Y)) :
    (∃ c, h b = some c ∧ c.right = 0) ∨ (∃ c, h a = some c ∧ c.left = 0) := by
  obtain ⟨T, m, s, hi, hR, hb, hc⟩ := hT
  obtain ⟨ctx, c, l, r, rfl, hX, hY⟩ := find_place T hi
  have s' := S.whole.2 s
  cases l with
  | nil => exact Or.inr ⟨_, s'.cell, rfl⟩
  | node a' c' l' v' r' =>
    left
    have hne : (Shape.node a' c' l' v' r').items ≠ [] := by simp [Shape.items]
    obtain ⟨W, x, hW⟩ : ∃ W x, (Shape.node a' c' l' v' r').items = W ++ [x] := ⟨_, _, (List.dropLast_append_getLast hne).symm⟩
    rw [hW, ← List.append_assoc] at hX
    have := (List.append_inj' hX rfl).2
    simp only [List.cons.injEq, and_true] at this
    exact last_right _ (S.left.1 s').tree (by rw [hW, this])

end Verif.Rb
