import Verif.RbMap2

/-!
# The operations of `map`
-/

namespace Verif.Rb

variable {K V : Type}

/-- the memory `h` contains a map with the elements `L` in ascending order; the tree is a red-black tree -/
def MapAt (lt : K → K → Bool) (h : Heap (K × V)) (t : Tree0) (L : List (Elem K V)) : Prop := Tr h t L ∧ Asc lt L

variable {α : Type}

theorem Tr.alloc {h : Heap α} {t : Tree0} {L : List (Ptr × α)} (hT : Tr h t L) : ∀ q ∈ owned t.hd L, h q ≠ none := by
  obtain ⟨T, m, s, hi, _⟩ := hT
  have tree : ∀ (t : Shape α) (par : Ptr), Rep h par t → ∀ q ∈ addrs t.items, h q ≠ none := by
    intro t
    induction t with
    | nil => intro par _ q hq; simp [Shape.items, addrs] at hq
    | node a c l v r ihl ihr =>
      intro par hr q hq
      simp only [Shape.items, addrs, List.map_append, List.map_cons, List.mem_append, List.mem_cons] at hq
      rcases hq with hq | rfl | hq
      · exact ihl a hr.2.1 q hq
      · rw [hr.1]; simp
      · exact ihr a hr.2.2 q hq
  intro q hq
  rcases List.mem_cons.1 hq with rfl | hq
  · have : h t.hd = some ⟨T.ptr, _, _, true, none⟩ := s.place.header
    rw [this]; simp
  · rw [← hi] at hq
    exact tree T _ s.tree q hq

theorem Tr.congr {h h' : Heap α} {t : Tree0} {L : List (Ptr × α)} (hT : Tr h t L) (he : ∀ q ∈ owned t.hd L, h' q = h q) (h0 : h' 0 = h 0) : Tr h' t L := by
  obtain ⟨T, m, s, hi, r⟩ := hT
  refine ⟨T, m, s.congr (fun q hq => he q ?_) h0, hi, r⟩
  have : (plug ([] : List (Frame α)) T).items = L := hi
  rw [this] at hq
  exact hq

theorem Tr.null {h : Heap α} {t : Tree0} {L : List (Ptr × α)} (hT : Tr h t L) : h 0 = none := by
  obtain ⟨T, m, s, _⟩ := hT; exact s.null

/-- a node is created -/
theorem Tr.create {h : Heap α} {t : Tree0} {L : List (Ptr × α)} (hT : Tr h t L) {np : Ptr} (hf : h np = none) (np0 : np ≠ 0) (v : α) : Tr (createNode h np v) t L ∧ np ∉ owned t.hd L := by
  have hn : np ∉ owned t.hd L := fun e => hT.alloc np e hf
  exact ⟨hT.congr (fun q hq => put_ne _ _ (fun e : q = np => hn (e ▸ hq))) (put_ne _ _ (Ne.symm np0)), hn⟩

theorem free_create {h : Heap α} {np : Ptr} (hf : h np = none) (v : α) : free (createNode h np v) np = some h := by
  rw [free, createNode, put_same]
  simp only [Option.map_some, Option.some.injEq]
  funext q
  by_cases hq : q = np
  · rw [hq, put_same, hf]
  · rw [put_ne _ _ hq, put_ne _ _ hq]

/-- a place between the elements `A` and `B` -/
structure Place (h : Heap α) (t : Tree0) (A B : List (Ptr × α)) (ctx : List (Frame α)) : Prop where
  bef : A = before ctx
  aft : B = after ctx
  s : S h t.hd (firstP t.hd (A ++ B)) (lastP t.hd (A ++ B)) ctx .nil
  rb : ∃ n, RB (plug ctx (.nil : Shape α)) n ∧ (plug ctx (.nil : Shape α)).isRed = false
  count : t.count = (A ++ B).length

/-- the parts of a tree with an empty place -/
theorem Tr.place {h : Heap α} {t : Tree0} {L : List (Ptr × α)} {T : Shape α} {m : Nat} {ctx : List (Frame α)} (s : S h t.hd (firstP t.hd L) (lastP t.hd L) [] T) (hi : T.items = L) (hR : RB T m) (hb : T.isRed = false)
    (hc : t.count = L.length) (hp : T = plug ctx .nil) : L = before ctx ++ after ctx ∧ Place h t (before ctx) (after ctx) ctx := by
  have hL : L = before ctx ++ after ctx := by rw [← hi, hp, plug_items]; simp [Shape.items]
  subst hp
  rw [hL] at s hc
  exact ⟨hL, ⟨rfl, rfl, S.whole.2 s, ⟨m, hR, hb⟩, hc⟩⟩

theorem Place.insert {h : Heap α} {t : Tree0} {A B : List (Ptr × α)} {ctx : List (Frame α)} (hp : Place h t A B ctx) {np : Ptr} {v : α} {c d : Bool} (hnp : h np = some ⟨0, 0, 0, c, some v⟩) (np0 : np ≠ 0)
    (npo : np ∉ owned t.hd (A ++ B)) (hd' : ∀ f ∈ ctx.head?, d = f.isL) :
    ∃ h', insertNodeAt h t (parOf t.hd ctx) np d = some (np, h', { t with count := t.count + 1 }) ∧ Tr h' { t with count := t.count + 1 } (A ++ (np, v) :: B) ∧ Off (np :: owned t.hd (A ++ B)) h h' := by
  obtain ⟨n, r1, r2⟩ := hp.rb
  exact insertNodeAt_ok hp.bef hp.aft hp.s r1 r2 hp.count hnp np0 npo hd'

theorem RB.rootBlack {T : Shape α} {a : Ptr} {c : Bool} {l r : Shape α} {v : α} (h : T.isRed = false) (e : T = .node a c l v r) : c = false := by subst e; exact h

/-- the free place on the right of an element without right child -/
theorem Tr.rightOf {h : Heap α} {t : Tree0} {X B : List (Ptr × α)} {b : Ptr} {w : α} (hT : Tr h t (X ++ (b, w) :: B)) (hr : ∀ c, h b = some c → B = [] ∨ c.right = 0) :
    ∃ ctx, Place h t (X ++ [(b, w)]) B ctx ∧ parOf t.hd ctx = b ∧ ∀ f ∈ ctx.head?, false = f.isL := by
  obtain ⟨T, m, s, hi, hR, hb, hc⟩ := hT
  obtain ⟨ctx, c, l, r, rfl, hX, hY⟩ := find_place T hi
  have s' := S.whole.2 s
  have r0 : 0 ∉ addrs r.items := fun e => s'.sep'.zero (by simp only [Shape.items, addrs, List.map_append, List.map_cons, List.mem_append, List.mem_cons]; exact Or.inr (Or.inr e))
  have hrn : r = .nil := by
    rcases hr _ s'.cell with h1 | h1
    · by_contra hne
      rw [h1] at hY
      exact items_ne hne (List.append_eq_nil_iff.1 hY.symm).1
    · exact (ptr_zero r0).1 h1
  subst hrn
  obtain ⟨e1, e2⟩ := Tr.place (ctx := ⟨false, b, c, w, l⟩ :: ctx) s hi hR hb hc rfl
  have hA : before (⟨false, b, c, w, l⟩ :: ctx) = X ++ [(b, w)] := by rw [hX]; simp [before]
  have hB : after (⟨false, b, c, w, l⟩ :: ctx) = B := by rw [hY]; simp [after, Shape.items]
  rw [hA, hB] at e2
  exact ⟨_, e2, rfl, by simp⟩

/-- the free place on the left of an element without left child -/
theorem Tr.leftOf {h : Heap α} {t : Tree0} {A Y : List (Ptr × α)} {b : Ptr} {w : α} (hT : Tr h t (A ++ (b, w) :: Y)) (hr : ∀ c, h b = some c → A = [] ∨ c.left = 0) :
    ∃ ctx, Place h t A ((b, w) :: Y) ctx ∧ parOf t.hd ctx = b ∧ ∀ f ∈ ctx.head?, true = f.isL := by
  obtain ⟨T, m, s, hi, hR, hb, hc⟩ := hT
  obtain ⟨ctx, c, l, r, rfl, hX, hY⟩ := find_place T hi
  have s' := S.whole.2 s
  have l0 : 0 ∉ addrs l.items := fun e => s'.sep'.zero (by simp only [Shape.items, addrs, List.map_append, List.map_cons, List.mem_append, List.mem_cons]; exact Or.inl e)
  have hrn : l = .nil := by
    rcases hr _ s'.cell with h1 | h1
    · by_contra hne
      rw [h1] at hX
      exact items_ne hne (List.append_eq_nil_iff.1 hX.symm).2
    · exact (ptr_zero l0).1 h1
  subst hrn
  obtain ⟨e1, e2⟩ := Tr.place (ctx := ⟨true, b, c, w, r⟩ :: ctx) s hi hR hb hc rfl
  have hA : before (⟨true, b, c, w, r⟩ :: ctx) = A := by rw [hX]; simp [before, Shape.items]
  have hB : after (⟨true, b, c, w, r⟩ :: ctx) = (b, w) :: Y := by rw [hY]; simp [after]
  rw [hA, hB] at e2
  exact ⟨_, e2, rfl, by simp⟩

/-- the previous element -/
theorem Tr.dec {h : Heap α} {t : Tree0} {X Y : List (Ptr × α)} {a : Ptr} {v : α} (hT : Tr h t (X ++ (a, v) :: Y)) (hX : X ≠ []) {fuel : Nat} (hf : t.count < fuel) : dec fuel h a = some (lastP t.hd X) := by
  obtain ⟨T, m, s, hi, hR, hb, hc⟩ := hT
  obtain ⟨ctx, c, l, r, rfl, hX', hY⟩ := find_place T hi
  rw [hX'] at hX ⊢
  refine dec_ok (S.whole.2 s) (fun e => ?_) (by rw [hi, ← hc]; exact hf) hX
  subst e
  exact hb

/-- the next element -/
theorem Tr.inc {h : Heap α} {t : Tree0} {X Y : List (Ptr × α)} {a : Ptr} {v : α} (hT : Tr h t (X ++ (a, v) :: Y)) {fuel : Nat} (hf : t.count < fuel) : inc fuel h a = some (firstP t.hd Y) := by
  obtain ⟨T, m, s, hi, hR, hb, hc⟩ := hT
  obtain ⟨ctx, c, l, r, rfl, hX', hY⟩ := find_place T hi
  rw [hY]
  exact inc_ok (S.whole.2 s) (by rw [hi]) (by rw [hi, ← hc]; exact hf)

theorem Tr.header {h : Heap α} {t : Tree0} {L : List (Ptr × α)} (hT : Tr h t L) : ∃ r, h t.hd = some ⟨r, firstP t.hd L, lastP t.hd L, true, none⟩ := by
  obtain ⟨T, m, s, _⟩ := hT
  exact ⟨_, s.place.header⟩

theorem Tr.cell {h : Heap α} {t : Tree0} {L : List (Ptr × α)} (hT : Tr h t L) {a : Ptr} {v : α} (hm : (a, v) ∈ L) : ∃ c, h a = some c ∧ c.val = some v := by
  obtain ⟨X, Y, rfl⟩ := List.append_of_mem hm
  obtain ⟨T, m, s, hi, _⟩ := hT
  obtain ⟨ctx, c, l, r, rfl, _, _⟩ := find_place T hi
  exact ⟨_, (S.whole.2 s).cell, rfl⟩

theorem Tr.hd_ne {h : Heap α} {t : Tree0} {L : List (Ptr × α)} (hT : Tr h t L) {a : Ptr} {v : α} (hm : (a, v) ∈ L) : a ≠ t.hd := by
  obtain ⟨X, Y, rfl⟩ := List.append_of_mem hm
  obtain ⟨T, m, s, hi, _⟩ := hT
  obtain ⟨ctx, c, l, r, rfl, _, _⟩ := find_place T hi
  exact (S.whole.2 s).nodeHd

theorem Tr.nodup {h : Heap α} {t : Tree0} {L : List (Ptr × α)} (hT : Tr h t L) : (addrs L).Nodup := by
  obtain ⟨T, m, s, hi, _⟩ := hT
  have := s.sep'.nodA
  rwa [hi] at this

theorem Tr.key {h : Heap (K × V)} {t : Tree0} {L : List (Elem K V)} (hT : Tr h t L) {a : Ptr} {v : K × V} (hm : (a, v) ∈ L) : keyAt h a = some v.1 := by
  obtain ⟨c, h1, h2⟩ := hT.cell hm
  rw [keyAt, h1]
  simp [h2]

theorem lastP_append {X : List (Ptr × α)} {e : Ptr × α} {hd : Ptr} : lastP hd (X ++ [e]) = e.1 := by simp [lastP, firstP]

/-! ## where a key belongs -/

theorem split_new {lt : K → K → Bool} (w : StrictWeak lt) {k : K} {A B : List (Elem K V)} (hA : ∀ x ∈ A, lt x.2.1 k = true) (hB : ∀ x ∈ B, lt k x.2.1 = true) :
    below lt k (A ++ B) = A ∧ above lt k (A ++ B) = B ∧ has lt k (A ++ B) = false := by
  have hA' : ∀ x ∈ A, lt k x.2.1 = false := fun x hx => w.asymm _ _ (hA x hx)
  have hB' : ∀ x ∈ B, lt x.2.1 k = false := fun x hx => w.asymm _ _ (hB x hx)
  refine ⟨?_, ?_, ?_⟩
  · rw [below, List.filter_append, List.filter_eq_self.2 hA, List.filter_eq_nil_iff.2 (fun x hx => by simp [hB' x hx]), List.append_nil]
  · rw [above, List.filter_append, List.filter_eq_self.2 hB, List.filter_eq_nil_iff.2 (fun x hx => by simp [hA' x hx]), List.nil_append]
  · rw [has, List.any_eq_false]
    intro x hx
    rcases List.mem_append.1 hx with hx | hx
    · simp [same, hA x hx]
    · simp [same, hB x hx]

theorem has_true {lt : K → K → Bool} {k : K} {L : List (Elem K V)} {x : Elem K V} (hx : x ∈ L) (h1 : lt x.2.1 k = false) (h2 : lt k x.2.1 = false) : has lt k L = true := by
  rw [has, List.any_eq_true]
  exact ⟨x, hx, by simp [same, h1, h2]⟩

theorem asc_added {lt : K → K → Bool} (w : StrictWeak lt) {L : List (Elem K V)} (hs : Asc lt L) (e : Elem K V) : Asc lt (added lt e L) := by
  rw [added, Asc, List.pairwise_append]
  refine ⟨hs.sublist List.filter_sublist, ?_, ?_⟩
  · rw [List.pairwise_cons]
    exact ⟨fun x hx => by simpa [above] using (List.mem_filter.1 hx).2, hs.sublist List.filter_sublist⟩
  · intro x hx y hy
    have h1 : lt x.2.1 e.2.1 = true := (List.mem_filter.1 hx).2
    rcases List.mem_cons.1 hy with rfl | hy
    · exact h1
    · exact lt_trans' w h1 (List.mem_filter.1 hy).2

/-- `get_insert_unique_pos` -/
theorem insertUniquePos_ok {lt : K → K → Bool} (w : StrictWeak lt) {h : Heap (K × V)} {t : Tree0} {L : List (Elem K V)} (hM : MapAt lt h t L) (key : K) :
    ∃ A B ctx, L = A ++ B ∧ Place h t A B ctx ∧ insertUniquePos lt h t key = some ((parOf t.hd ctx, sideOf true ctx), !has lt key L) ∧
      (has lt key L = false → A = below lt key L ∧ B = above lt key L) ∧
      (has lt key L = true → ∃ X x, A = X ++ [x] ∧ same lt x.2.1 key = true) := by
  obtain ⟨hT, hs⟩ := hM
  have hT' := hT
  obtain ⟨T, m, s, hi, hR, hb, hc⟩ := hT
  rw [← hi] at hs
  obtain ⟨ctx, e1, e2, e3, e4⟩ := posLoop_ok w key T t.hd true (t.count + 1) s.tree s.sep'.zero hs (by rw [hi, hc]; omega)
  rw [hi] at hs
  obtain ⟨hL, hp⟩ := Tr.place s hi hR hb hc e1
  have hroot : root h t.hd = some T.ptr := s.root
  obtain ⟨r, hhd⟩ := hT'.header
  refine ⟨before ctx, after ctx, ctx, hL, hp, ?_⟩
  have unfoldP : ∀ res, ((fun (y : Ptr) (left : Bool) => (if left = true ∧ (y = t.hd ∨ y = firstP t.hd L) then some ((y, true), true)
      else do
        let j ← (if left = true then dec (t.count + 1) h y else some y)
        let k ← keyAt h j
        if lt k key = true then some ((y, left), true) else some ((y, left), false))) (parOf t.hd ctx) (sideOf true ctx)) = res → insertUniquePos lt h t key = res := by
    intro res hres
    rw [← hres]
    unfold insertUniquePos
    simp only [hroot, Option.bind_eq_bind, Option.bind_some, e2, hhd, Option.pure_def]
  have hbelow : ∀ X x, before ctx = X ++ [x] → lt x.2.1 key = true → ∀ y ∈ before ctx, lt y.2.1 key = true := by
    intro X x hX hx y hy
    rw [hX] at hy
    rcases List.mem_append.1 hy with hy | hy
    · have hs' := hs
      rw [hL, hX] at hs'
      have h1 : (X ++ [x]).Pairwise (fun a b => lt a.2.1 b.2.1 = true) := (List.pairwise_append.1 hs').1
      exact lt_trans' w ((List.pairwise_append.1 h1).2.2 y hy x (by simp)) hx
    · rw [List.mem_singleton.1 hy]; exact hx
  by_cases hbn : before ctx = []
  · -- nothing before
    have hnew := split_new w (A := before ctx) (B := after ctx) (k := key) (by rw [hbn]; simp) e4
    rw [← hL] at hnew
    refine ⟨unfoldP _ ?_, fun _ => ⟨hnew.1.symm, hnew.2.1.symm⟩, fun e => by rw [hnew.2.2] at e; exact absurd e (by simp)⟩
    rw [hnew.2.2]
    have hside : sideOf true ctx = true := by
      cases ctx with
      | nil => rfl
      | cons f ctx =>
        cases hf : f.isL
        · simp [before, hf] at hbn
        · exact hf
    have hpar : parOf t.hd ctx = firstP t.hd L := by rw [hL, hbn, List.nil_append, before_nil hbn]
    simp only [hside, hpar, true_and, or_true, if_true]
    rfl
  · obtain ⟨X, x, hX⟩ : ∃ X x, before ctx = X ++ [x] := ⟨_, _, (List.dropLast_append_getLast hbn).symm⟩
    obtain ⟨xa, xv⟩ := x
    have hxL : (xa, xv) ∈ L := by rw [hL, hX]; simp
    have hlast : lastP t.hd (before ctx) = xa := by rw [hX, lastP_append]
    have hj : (if sideOf true ctx = true then dec (t.count + 1) h (parOf t.hd ctx) else some (parOf t.hd ctx)) = some xa ∧ ¬ (sideOf true ctx = true ∧ (parOf t.hd ctx = t.hd ∨ parOf t.hd ctx = firstP t.hd L)) := by
      cases ctx with
      | nil => exact absurd rfl hbn
      | cons f ctx =>
        cases hf : f.isL
        · have hb' : before (f :: ctx) = (before ctx ++ f.sib.items) ++ [(f.a, f.v)] := by simp [before, hf]
          rw [hb', lastP_append] at hlast
          have hlast' : f.a = xa := hlast
          refine ⟨by simp only [sideOf, hf, parOf, Bool.false_eq_true, if_false]; rw [hlast'], by simp [sideOf, hf]⟩
        · have ha' : after (f :: ctx) = (f.a, f.v) :: (f.sib.items ++ after ctx) := by simp [after, hf]
          have hL' := hL
          rw [ha'] at hL'
          have hTd := hT'
          rw [hL'] at hTd
          have hdec := hTd.dec hbn (fuel := t.count + 1) (by omega)
          rw [hlast] at hdec
          refine ⟨by simp only [sideOf, hf, if_true, parOf]; exact hdec, ?_⟩
          rintro ⟨_, h1 | h1⟩
          · exact hTd.hd_ne (a := f.a) (v := f.v) (by simp) h1
          · have hn := hTd.nodup
            rw [hL', parOf] at h1
            exact hbn (firstP_is hn h1.symm)
    have hkey := hT'.key hxL
    have hmain : insertUniquePos lt h t key = some ((parOf t.hd ctx, sideOf true ctx), lt xv.1 key) := by
      apply unfoldP
      simp only [hj.2, if_false]
      have h1 := hj.1
      simp only [Option.bind_eq_bind]
      rw [h1]
      simp only [Option.bind_some, hkey]
      cases lt xv.1 key <;> rfl
    cases hx : lt xv.1 key with
    | true =>
      have hnew := split_new w (hbelow X _ hX hx) e4
      rw [← hL] at hnew
      refine ⟨by rw [hmain, hx, hnew.2.2]; rfl, fun _ => ⟨hnew.1.symm, hnew.2.1.symm⟩, fun e => by rw [hnew.2.2] at e; exact absurd e (by simp)⟩
    | false =>
      have hk := e3 (xa, xv) (by rw [hX]; simp)
      have hh : has lt key L = true := has_true hxL hx hk
      refine ⟨by rw [hmain, hx, hh]; rfl, fun e => by rw [hh] at e; exact absurd e (by simp), fun _ => ⟨X, (xa, xv), hX, ?_⟩⟩
      simp only at hk
      simp [same, hx, hk]

/-- what an insertion does, in terms of the content: `y` is the iterator that is returned when the key was there already -/
def InsSpec (lt : K → K → Bool) (h : Heap (K × V)) (t : Tree0) (L : List (Elem K V)) (np : Ptr) (v : K × V) (res : Option (Ptr × Heap (K × V) × Tree0)) : Prop :=
  (has lt v.1 L = false → ∃ h', res = some (np, h', { t with count := t.count + 1 }) ∧ MapAt lt h' { t with count := t.count + 1 } (added lt (np, v) L) ∧ Off (np :: owned t.hd L) h h') ∧
  (has lt v.1 L = true → ∃ X x Y, L = X ++ x :: Y ∧ same lt x.2.1 v.1 = true ∧ (res = some (x.1, h, t) ∨ Y ≠ [] ∧ res = some (headOr t.hd Y, h, t)))

/-- the place of the parent when the key was there already -/
theorem parent_place {h : Heap (K × V)} {t : Tree0} {X B : List (Elem K V)} {x : Elem K V} {ctx : List (Frame (K × V))} (hp : Place h t (X ++ [x]) B ctx) :
    parOf t.hd ctx = x.1 ∨ B ≠ [] ∧ parOf t.hd ctx = headOr t.hd B := by
  have h1 := hp.bef
  have h2 := hp.aft
  cases ctx with
  | nil => simp [before] at h1
  | cons f ctx =>
    cases hf : f.isL
    · left
      have : before (f :: ctx) = (before ctx ++ f.sib.items) ++ [(f.a, f.v)] := by simp [before, hf]
      rw [this] at h1
      have := (List.append_inj' h1 rfl).2
      simp only [List.cons.injEq, and_true] at this
      rw [this]; rfl
    · right
      have : after (f :: ctx) = (f.a, f.v) :: (f.sib.items ++ after ctx) := by simp [after, hf]
      rw [this] at h2
      rw [h2]
      exact ⟨by simp, rfl⟩

theorem Off.create {h h' : Heap α} {np : Ptr} {v : α} {A : List Ptr} (ho : Off (np :: A) (createNode h np v) h') : Off (np :: A) h h' := by
  intro q hq
  rw [ho q hq, createNode, put_ne _ _ (fun e : q = np => hq (by simp [e]))]

/-- the insertion at a place between `below` and `above` -/
theorem insert_at {lt : K → K → Bool} (w : StrictWeak lt) {h : Heap (K × V)} {t : Tree0} {L A B : List (Elem K V)} {ctx : List (Frame (K × V))} {np : Ptr} {v : K × V} {d : Bool} (hs : Asc lt L) (hL : L = A ++ B)
    (hp : Place (createNode h np v) t A B ctx) (np0 : np ≠ 0) (npo : np ∉ owned t.hd L) (hd' : ∀ f ∈ ctx.head?, d = f.isL) (hA : ∀ x ∈ A, lt x.2.1 v.1 = true) (hB : ∀ x ∈ B, lt v.1 x.2.1 = true) :
    InsSpec lt h t L np v (insertNodeAt (createNode h np v) t (parOf t.hd ctx) np d) := by
  obtain ⟨b1, b2, b3⟩ := split_new w hA hB
  rw [hL] at npo
  obtain ⟨h', e1, e2, e3⟩ := hp.insert (np := np) (v := v) (c := false) (put_same _ _ _) np0 npo hd'
  have hadd : A ++ (np, v) :: B = added lt (np, v) L := by rw [added, hL, b1, b2]
  rw [← hL] at b3 e3
  refine ⟨fun _ => ⟨h', e1, ⟨by rw [← hadd]; exact e2, asc_added w hs _⟩, e3.create⟩, fun e => ?_⟩
  rw [b3] at e; exact absurd e (by simp)

/-- the end of the functions with a hint -/
theorem hintEnd_ok {lt : K → K → Bool} (w : StrictWeak lt) {h : Heap (K × V)} {t : Tree0} {L : List (Elem K V)} (hM : MapAt lt h t L) {np : Ptr} (hf : h np = none) (np0 : np ≠ 0) (v : K × V) :
    InsSpec lt h t L np v (hintEnd lt (createNode h np v) t np v.1) := by
  obtain ⟨hT, npo⟩ := hM.1.create hf np0 v
  obtain ⟨A, B, ctx, hL, hp, hpos, hnew, hold⟩ := insertUniquePos_ok w ⟨hT, hM.2⟩ v.1
  cases hh : has lt v.1 L with
  | false =>
    have hres : hintEnd lt (createNode h np v) t np v.1 = insertNodeAt (createNode h np v) t (parOf t.hd ctx) np (sideOf true ctx) := by
      unfold hintEnd
      rw [hpos, hh]
      rfl
    obtain ⟨hA, hB⟩ := hnew hh
    rw [hres]
    refine insert_at w hM.2 hL hp np0 npo (fun f hf => ?_) (fun x hx => ?_) (fun x hx => ?_)
    · cases ctx with
      | nil => simp at hf
      | cons g ctx => simp at hf; rw [← hf]; rfl
    · rw [hA] at hx; exact (List.mem_filter.1 hx).2
    · rw [hB] at hx; exact (List.mem_filter.1 hx).2
  | true =>
    have hres : hintEnd lt (createNode h np v) t np v.1 = some (parOf t.hd ctx, h, t) := by
      unfold hintEnd
      rw [hpos, hh]
      simp only [Option.bind_eq_bind, Option.bind_some, Bool.not_true, if_true, free_create hf, Option.pure_def]
    obtain ⟨X, x, hX, hsame⟩ := hold hh
    refine ⟨fun e => by rw [hh] at e; exact absurd e (by simp), fun _ => ⟨X, x, B, by rw [hL, hX]; simp, hsame, ?_⟩⟩
    rw [hX] at hp
    rcases parent_place hp with e | ⟨e1, e2⟩
    · left; rw [hres, e]
    · right; exact ⟨e1, by rw [hres, e2]⟩

/-- `emplace_unique`, `insert_unique` -/
theorem insertUnique_ok {lt : K → K → Bool} (w : StrictWeak lt) {h : Heap (K × V)} {t : Tree0} {L : List (Elem K V)} (hM : MapAt lt h t L) {np : Ptr} (hf : h np = none) (np0 : np ≠ 0) (v : K × V) :
    ∃ res, InsSpec lt h t L np v res ∧ insertUnique lt h t np v = res.map (fun r => ((r.1, !has lt v.1 L), r.2)) := by
  refine ⟨_, hintEnd_ok w hM hf np0 v, ?_⟩
  obtain ⟨hT, npo⟩ := hM.1.create hf np0 v
  obtain ⟨A, B, ctx, hL, hp, hpos, hnew, hold⟩ := insertUniquePos_ok w ⟨hT, hM.2⟩ v.1
  unfold insertUnique hintEnd
  cases hh : has lt v.1 L with
  | false =>
    simp only [hpos, hh, Option.bind_eq_bind, Option.bind_some, Bool.not_false, if_true, Bool.true_eq_false, if_false]
    cases insertNodeAt (createNode h np v) t (parOf t.hd ctx) np (sideOf true ctx) with
    | none => rfl
    | some r => rfl
  | true =>
    simp only [hpos, hh, Option.bind_eq_bind, Option.bind_some, Bool.not_true, Bool.false_eq_true, if_false, if_true, free_create hf]
    rfl

/-- `emplace_unique_use_hint`: any iterator of the map, or `end()`, is a good hint -/
theorem emplaceHint_ok {lt : K → K → Bool} (w : StrictWeak lt) {h : Heap (K × V)} {t : Tree0} {L : List (Elem K V)} (hM : MapAt lt h t L) {np : Ptr} (hf : h np = none) (np0 : np ≠ 0) (v : K × V) {hint : Ptr}
    (hh : hint ∈ owned t.hd L) : InsSpec lt h t L np v (emplaceHint lt h t hint np v) := by
  have hEnd := hintEnd_ok w hM hf np0 v
  obtain ⟨hT, npo⟩ := hM.1.create hf np0 v
  obtain ⟨r, hhd⟩ := hT.header
  unfold emplaceHint
  by_cases hc : t.count = 0
  · rw [if_pos hc]
    have hT0 := hT
    obtain ⟨T, m, s, hi, hR, hb, hcn⟩ := hT0
    have hL : L = [] := List.length_eq_zero_iff.1 (by omega)
    have hTn : T = .nil := by
      by_contra hne
      rw [hL] at hi
      exact items_ne hne hi
    subst hTn
    obtain ⟨e1, e2⟩ := Tr.place (ctx := []) s hi hR hb hcn rfl
    exact insert_at (ctx := []) w hM.2 e1 e2 np0 npo (by simp) (by simp [before]) (by simp [after])
  · rw [if_neg hc]
    have hLne : L ≠ [] := by
      intro e
      obtain ⟨T, m, s, hi, hR, hb, hcn⟩ := hT
      rw [e] at hcn
      exact hc hcn
    simp only [hhd, Option.bind_eq_bind, Option.bind_some]
    by_cases h1 : hint = firstP t.hd L
    · rw [if_pos h1]
      cases hL : L with
      | nil => exact absurd hL hLne
      | cons e L' =>
        obtain ⟨ea, ev⟩ := e
        have h1' : hint = ea := by rw [h1, hL]; rfl
        have hmem : (ea, ev) ∈ L := by rw [hL]; simp
        rw [← hL, h1', hT.key hmem]
        simp only [Option.bind_some]
        cases hlt : lt v.1 ev.1 with
        | false => simpa using hEnd
        | true =>
          simp only [if_true]
          have hTL := hT
          rw [hL] at hTL
          obtain ⟨ctx, hp, hpar, hside⟩ := Tr.leftOf (A := []) hTL (fun _ _ => Or.inl rfl)
          have := insert_at (d := true) w hM.2 (A := []) (B := (ea, ev) :: L') (by rw [hL]; rfl) hp np0 npo hside (by simp) (by
            intro x hx
            rcases List.mem_cons.1 hx with rfl | hx
            · exact hlt
            · have hs := hM.2
              rw [hL, Asc, List.pairwise_cons] at hs
              exact lt_trans' w hlt (hs.1 x hx))
          rw [hpar] at this
          exact this
    · rw [if_neg h1]
      by_cases h2 : hint = t.hd
      · rw [if_pos h2]
        obtain ⟨X, e, hL⟩ : ∃ X e, L = X ++ [e] := ⟨_, _, (List.dropLast_append_getLast hLne).symm⟩
        obtain ⟨ea, ev⟩ := e
        have hlast : lastP t.hd L = ea := by rw [hL, lastP_append]
        have hmem : (ea, ev) ∈ L := by rw [hL]; simp
        rw [hlast, hT.key hmem]
        simp only [Option.bind_some]
        cases hlt : lt ev.1 v.1 with
        | false => simpa using hEnd
        | true =>
          simp only [if_true]
          have hTL := hT
          rw [hL] at hTL
          obtain ⟨ctx, hp, hpar, hside⟩ := Tr.rightOf (B := []) hTL (fun _ _ => Or.inl rfl)
          have := insert_at (d := false) w hM.2 (A := X ++ [(ea, ev)]) (B := []) (by rw [hL]; simp) hp np0 npo hside (by
            intro x hx
            rcases List.mem_append.1 hx with hx | hx
            · have hs := hM.2
              rw [hL, Asc, List.pairwise_append] at hs
              exact lt_trans' w (hs.2.2 x hx (ea, ev) (by simp)) hlt
            · rw [List.mem_singleton.1 hx]; exact hlt) (by simp)
          rw [hpar] at this
          exact this
      · rw [if_neg h2]
        -- an inner element
        have hmem : hint ∈ addrs L := (List.mem_cons.1 hh).resolve_left h2
        obtain ⟨⟨ha, hv⟩, hm, rfl⟩ := List.mem_map.1 hmem
        obtain ⟨X, Y, hL⟩ := List.append_of_mem hm
        have hX : X ≠ [] := by
          intro e
          rw [hL, e] at h1
          exact h1 rfl
        obtain ⟨X', e, hX'⟩ : ∃ X' e, X = X' ++ [e] := ⟨_, _, (List.dropLast_append_getLast hX).symm⟩
        obtain ⟨ba, bv⟩ := e
        have hTL := hT
        rw [hL] at hTL
        have hdec := hTL.dec hX (fuel := t.count + 1) (by omega)
        rw [hX', lastP_append] at hdec
        have hbm : (ba, bv) ∈ L := by rw [hL, hX']; simp
        obtain ⟨cb, hcb, _⟩ := hT.cell hbm
        obtain ⟨ch, hch, _⟩ := hT.cell hm
        unfold insertUniqueUseHint
        simp only [hdec, Option.bind_eq_bind, Option.bind_some, hT.key hbm, hcb, hch, hT.key hm, Option.map_some]
        have hkh : (if lt bv.1 v.1 = true then some (lt v.1 hv.1) else some false) = some (lt bv.1 v.1 && lt v.1 hv.1) := by
          cases lt bv.1 v.1 <;> rfl
        rw [hkh]
        simp only [Option.bind_some]
        cases hb : (lt bv.1 v.1 && lt v.1 hv.1) with
        | false => simpa using hEnd
        | true =>
          simp only [Bool.and_eq_true] at hb
          have hs := hM.2
          rw [hL, Asc, List.pairwise_append, List.pairwise_cons] at hs
          have hsX : ∀ x ∈ X, lt x.2.1 v.1 = true := by
            intro x hx
            rw [hX'] at hx hs
            rcases List.mem_append.1 hx with hx | hx
            · exact lt_trans' w ((List.pairwise_append.1 hs.1).2.2 x hx (ba, bv) (by simp)) hb.1
            · rw [List.mem_singleton.1 hx]; exact hb.1
          have hsY : ∀ x ∈ (ha, hv) :: Y, lt v.1 x.2.1 = true := by
            intro x hx
            rcases List.mem_cons.1 hx with rfl | hx
            · exact hb.2
            · exact lt_trans' w hb.2 (hs.2.1.1 x hx)
          by_cases hr : cb.right = 0
          · rw [if_pos ⟨rfl, hr⟩]
            have hTb := hTL
            rw [hX', List.append_assoc] at hTb
            obtain ⟨ctx, hp, hpar, hside⟩ := Tr.rightOf hTb (fun c hc => by rw [hcb] at hc; rw [← Option.some.inj hc]; exact Or.inr hr)
            rw [← hX'] at hp
            have := insert_at (d := false) w hM.2 hL hp np0 npo hside hsX hsY
            rw [hpar] at this
            exact this
          · rw [if_neg (fun e => hr e.2)]
            by_cases hl : ch.left = 0
            · rw [if_pos ⟨rfl, hl⟩]
              obtain ⟨ctx, hp, hpar, hside⟩ := Tr.leftOf hTL (fun c hc => by rw [hch] at hc; rw [← Option.some.inj hc]; exact Or.inr hl)
              have := insert_at (d := true) w hM.2 hL hp np0 npo hside hsX hsY
              rw [hpar] at this
              exact this
            · rw [if_neg (fun e => hl e.2)]
              exact hEnd

end Verif.Rb
