import Verif.RbMulti1

/-!
# Insertion and removal with repeated keys; histories
-/

namespace Verif.Rb

open Verif.MultiSpec
open Verif.MapSpec (Out)

variable {K V : Type}

/-- what an insertion does: the new element stands between `A` and `B` -/
def MIns (lt : K → K → Bool) (h : Heap (K × V)) (t : Tree0) (A B : List (Elem K V)) (np : Ptr) (v : K × V) (res : Option (Ptr × Heap (K × V) × Tree0)) : Prop :=
  ∃ h', res = some (np, h', { t with count := t.count + 1 }) ∧ MultiAt lt h' { t with count := t.count + 1 } (A ++ (np, v) :: B) ∧ Off (np :: owned t.hd (A ++ B)) h h'

theorem insert_at_multi {lt : K → K → Bool} {h : Heap (K × V)} {t : Tree0} {A B : List (Elem K V)} {ctx : List (Frame (K × V))} {np : Ptr} {v : K × V} {d : Bool} (hs : Wk lt (A ++ B))
    (hp : Place (createNode h np v) t A B ctx) (np0 : np ≠ 0) (npo : np ∉ owned t.hd (A ++ B)) (hd' : ∀ f ∈ ctx.head?, d = f.isL) (hA : ∀ x ∈ A, lt v.1 x.2.1 = false) (hB : ∀ x ∈ B, lt x.2.1 v.1 = false) :
    MIns lt h t A B np v (insertNodeAt (createNode h np v) t (parOf t.hd ctx) np d) := by
  obtain ⟨h', e1, e2, e3⟩ := hp.insert (np := np) (v := v) (c := false) (put_same _ _ _) np0 npo hd'
  exact ⟨h', e1, ⟨e2, wk_insert hs hA hB⟩, e3.create⟩

/-- the descent and the insertion behind the elements not above the key -/
theorem hintEndMulti_ok {lt : K → K → Bool} (w : StrictWeak lt) {h : Heap (K × V)} {t : Tree0} {L : List (Elem K V)} (hM : MultiAt lt h t L) {np : Ptr} (hf : h np = none) (np0 : np ≠ 0) (v : K × V) :
    MIns lt h t (notAbove lt v.1 L) (above lt v.1 L) np v (hintEndMulti lt (createNode h np v) t np v.1) := by
  obtain ⟨hT, npo⟩ := hM.1.create hf np0 v
  obtain ⟨T, m, s, hi, hR, hb, hc⟩ := hT
  have hh : createNode h np v t.hd = some ⟨T.ptr, firstP t.hd L, lastP t.hd L, true, none⟩ := s.place.header
  have h0 : 0 ∉ addrs T.items := s.sep'.zero
  obtain ⟨ctx, e1, e2, e3, e4⟩ := posLoop_weak w v.1 T t.hd true (t.count + 1) s.tree h0 (by rw [hi]; exact hM.2) (by rw [hi, ← hc]; omega)
  obtain ⟨hL, hp⟩ := Tr.place s hi hR hb hc e1
  obtain ⟨n1, n2⟩ := notAbove_eq e3 e4
  rw [hL, n1, n2, hintEndMulti, insertMultiPos, root, hh]
  simp only [Option.bind_eq_bind, Option.bind_some, Option.pure_def, e2]
  refine insert_at_multi (by rw [← hL]; exact hM.2) hp np0 (by rw [← hL]; exact npo) ?_ e3 (fun x hx => w.asymm _ _ (e4 x hx))
  intro f hf
  cases ctx with
  | nil => simp at hf
  | cons g ctx =>
    simp only [List.head?_cons, Option.mem_def, Option.some.injEq] at hf
    rw [hf]; rfl

theorem insertMulti_ok {lt : K → K → Bool} (w : StrictWeak lt) {h : Heap (K × V)} {t : Tree0} {L : List (Elem K V)} (hM : MultiAt lt h t L) {np : Ptr} (hf : h np = none) (np0 : np ≠ 0) (v : K × V) :
    MIns lt h t (notAbove lt v.1 L) (above lt v.1 L) np v (insertMulti lt h t np v) := hintEndMulti_ok w hM hf np0 v

/-- where the hint puts the element -/
def hintIdx (lt : K → K → Bool) (i : Nat) (k : K) (L : List (Elem K V)) : Nat := hintPos lt i k (vals L)

theorem hintIdx_fit {lt : K → K → Bool} {k : K} {X Y : List (Elem K V)} {b a : Elem K V} (h1 : lt k b.2.1 = false) (h2 : lt a.2.1 k = false) :
    hintIdx lt (X ++ [b]).length k ((X ++ [b]) ++ a :: Y) = (X ++ [b]).length := by
  have e1 : (vals ((X ++ [b]) ++ a :: Y))[(X ++ [b]).length - 1]? = some b.2 := by simp [vals]
  have e2 : (vals ((X ++ [b]) ++ a :: Y))[(X ++ [b]).length]? = some a.2 := by simp [vals]
  rw [hintIdx, hintPos, e1, e2, if_pos]
  simp [h1, h2]

theorem hintIdx_unfit {lt : K → K → Bool} {k : K} {X Y : List (Elem K V)} {b a : Elem K V} (h : ¬(lt k b.2.1 = false ∧ lt a.2.1 k = false)) :
    hintIdx lt (X ++ [b]).length k ((X ++ [b]) ++ a :: Y) = (notAbove lt k ((X ++ [b]) ++ a :: Y)).length := by
  have e1 : (vals ((X ++ [b]) ++ a :: Y))[(X ++ [b]).length - 1]? = some b.2 := by simp [vals]
  have e2 : (vals ((X ++ [b]) ++ a :: Y))[(X ++ [b]).length]? = some a.2 := by simp [vals]
  have e3 : (vals ((X ++ [b]) ++ a :: Y)).filter (fun x => !lt k x.1) = vals (notAbove lt k ((X ++ [b]) ++ a :: Y)) := by rw [vals_filter]; rfl
  have e4 : (vals (notAbove lt k ((X ++ [b]) ++ a :: Y))).length = (notAbove lt k ((X ++ [b]) ++ a :: Y)).length := by simp [vals]
  rw [hintIdx, hintPos, e1, e2, e3, e4, if_neg]
  simpa using h

theorem hintIdx_out {lt : K → K → Bool} {k : K} {L : List (Elem K V)} {i : Nat} (h : i = 0 ∨ L.length ≤ i) : hintIdx lt i k L = (notAbove lt k L).length := by
  have e3 : (vals L).filter (fun x => !lt k x.1) = vals (notAbove lt k L) := by rw [vals_filter]; rfl
  have e4 : (vals (notAbove lt k L)).length = (notAbove lt k L).length := by simp [vals]
  rw [hintIdx, hintPos, e3, e4]
  rw [if_neg]
  rcases h with rfl | h
  · simp
  · have : (vals L)[i]? = none := by rw [List.getElem?_eq_none]; simpa [vals] using h
    rw [this]; simp

/-- **insertion with a hint** -/
theorem emplaceHintMulti_ok {lt : K → K → Bool} (w : StrictWeak lt) {h : Heap (K × V)} {t : Tree0} {L : List (Elem K V)} (hM : MultiAt lt h t L) {np : Ptr} (hf : h np = none) (np0 : np ≠ 0) (v : K × V) (i : Nat) :
    MIns lt h t (L.take (hintIdx lt i v.1 L)) (L.drop (hintIdx lt i v.1 L)) np v (emplaceHintMulti lt h t (firstP t.hd (L.drop i)) np v) := by
  have hEnd := hintEndMulti_ok w hM hf np0 v
  have hsp := wk_above w v.1 hM.2
  have hEnd' : MIns lt h t (L.take (notAbove lt v.1 L).length) (L.drop (notAbove lt v.1 L).length) np v (hintEndMulti lt (createNode h np v) t np v.1) := by
    have h1 : L.take (notAbove lt v.1 L).length = notAbove lt v.1 L := by
      conv_lhs => arg 2; rw [hsp]
      rw [List.take_left']
      rfl
    have h2 : L.drop (notAbove lt v.1 L).length = above lt v.1 L := by
      conv_lhs => arg 2; rw [hsp]
      rw [List.drop_left']
      rfl
    rw [h1, h2]; exact hEnd
  obtain ⟨hT, npo⟩ := hM.1.create hf np0 v
  obtain ⟨r, hhd⟩ := hT.header
  unfold emplaceHintMulti
  by_cases hc : t.count = 0
  · rw [if_pos hc]
    have hT0 := hT
    obtain ⟨T, m, s, hi, hR, hb, hcn⟩ := hT0
    have hL : L = [] := List.length_eq_zero_iff.1 (by omega)
    have hTn : T = .nil := by
      by_contra hne
      rw [hL] at hi
      exact items_ne hne hi
    subst hTn
    obtain ⟨e1, e2⟩ := Tr.place (ctx := []) s hi hR hb hcn rfl
    subst hL
    have := insert_at_multi (lt := lt) (h := h) (d := true) (A := []) (B := []) List.Pairwise.nil e2 np0 npo (by simp) (by simp) (by simp)
    rw [List.take_nil, List.drop_nil]
    exact this
  · rw [if_neg hc]
    have hLne : L ≠ [] := by
      intro e
      have := hT.count
      rw [e] at this
      exact hc this
    simp only [hhd, Option.bind_eq_bind, Option.bind_some]
    by_cases hi0 : i = 0
    · subst hi0
      rw [List.drop_zero, if_pos rfl, hintIdx_out (Or.inl rfl)]
      cases hL : L with
      | nil => exact absurd hL hLne
      | cons e L' =>
        obtain ⟨ea, ev⟩ := e
        have hmem : (ea, ev) ∈ L := by rw [hL]; simp
        rw [← hL, show firstP t.hd L = ea by rw [hL]; rfl, hT.key hmem]
        simp only [Option.bind_some]
        cases hlt : lt v.1 ev.1 with
        | false => simpa using hEnd'
        | true =>
          simp only [if_true]
          have hall : ∀ x ∈ L, lt v.1 x.2.1 = true := by
            intro x hx
            rw [hL] at hx
            rcases List.mem_cons.1 hx with rfl | hx
            · exact hlt
            · have hs := hM.2
              rw [hL, Wk, List.pairwise_cons] at hs
              exact lt_of_lt_le w hlt (hs.1 x hx)
          have hn0 : notAbove lt v.1 L = [] := by rw [notAbove, List.filter_eq_nil_iff]; intro x hx; simp [hall x hx]
          have hTL := hT
          rw [hL] at hTL
          obtain ⟨ctx, hp, hpar, hside⟩ := Tr.leftOf (A := []) hTL (fun _ _ => Or.inl rfl)
          rw [← hL] at hp
          have := insert_at_multi (d := true) (A := []) (B := L) hM.2 hp np0 npo hside (by simp) (fun x hx => w.asymm _ _ (hall x hx))
          rw [hpar] at this
          rw [hn0]
          exact this
    · by_cases hlen : L.length ≤ i
      · have hdr : L.drop i = [] := List.drop_eq_nil_iff.2 hlen
        have hne1 : t.hd ≠ firstP t.hd L := by
          cases hL : L with
          | nil => exact absurd hL hLne
          | cons e L' => exact Ne.symm (hT.hd_ne (a := e.1) (v := e.2) (by rw [hL]; simp))
        rw [hdr, show firstP t.hd ([] : List (Elem K V)) = t.hd from rfl, if_neg hne1, if_pos rfl, hintIdx_out (Or.inr hlen)]
        obtain ⟨X, e, hL⟩ : ∃ X e, L = X ++ [e] := ⟨_, _, (List.dropLast_append_getLast hLne).symm⟩
        obtain ⟨ea, ev⟩ := e
        have hmem : (ea, ev) ∈ L := by rw [hL]; simp
        rw [show lastP t.hd L = ea by rw [hL, lastP_append], hT.key hmem]
        simp only [Option.bind_some]
        cases hlt : lt v.1 ev.1 with
        | true => simpa using hEnd'
        | false =>
          simp only [if_true]
          have hall : ∀ x ∈ L, lt v.1 x.2.1 = false := by
            intro x hx
            rw [hL] at hx
            rcases List.mem_append.1 hx with hx | hx
            · have hs := hM.2
              rw [hL, Wk, List.pairwise_append] at hs
              exact le_trans'' w (hs.2.2 x hx (ea, ev) (by simp)) hlt
            · rw [List.mem_singleton.1 hx]; exact hlt
          have hn0 : notAbove lt v.1 L = L := by rw [notAbove, List.filter_eq_self]; intro x hx; simp [hall x hx]
          have hTL := hT
          rw [hL] at hTL
          obtain ⟨ctx, hp, hpar, hside⟩ := Tr.rightOf (B := []) hTL (fun _ _ => Or.inl rfl)
          rw [← hL] at hp
          have := insert_at_multi (d := false) (A := L) (B := []) (by rw [List.append_nil]; exact hM.2) hp np0 (by rw [List.append_nil]; exact npo) hside hall (by simp)
          rw [hpar] at this
          rw [hn0, List.take_length, List.drop_length]
          exact this
      · -- an inner element
        have hi' : i < L.length := by omega
        have hd1 : L.drop i = L[i] :: L.drop (i + 1) := List.drop_eq_getElem_cons hi'
        obtain ⟨X, hX⟩ : ∃ X, L.take i = X := ⟨_, rfl⟩
        have hXl : X.length = i := by rw [← hX, List.length_take]; omega
        have hXne : X ≠ [] := by intro e; rw [e] at hXl; exact hi0 hXl.symm
        obtain ⟨X', e, hX'⟩ : ∃ X' e, X = X' ++ [e] := ⟨_, _, (List.dropLast_append_getLast hXne).symm⟩
        obtain ⟨Y, hY⟩ : ∃ Y, L.drop (i + 1) = Y := ⟨_, rfl⟩
        obtain ⟨ba, bv⟩ := e
        obtain ⟨⟨ha, hv⟩, hx⟩ : ∃ x, L[i] = x := ⟨_, rfl⟩
        have hL : L = (X' ++ [(ba, bv)]) ++ (ha, hv) :: Y := by rw [← hX', ← hX, ← hY, ← hx, ← hd1, List.take_append_drop]
        have hm : (ha, hv) ∈ L := by rw [hL]; simp
        have hbm : (ba, bv) ∈ L := by rw [hL]; simp
        have hTL := hT
        rw [hL] at hTL
        have hne1 : ha ≠ firstP t.hd L := by
          intro e
          have hn := hT.nodup
          rw [hL] at e hn
          cases X' with
          | nil =>
            have e' : ha = ba := e
            simp [addrs, e'] at hn
          | cons x X' =>
            have e' : ha = x.1 := e
            simp [addrs, e'] at hn
        rw [hd1, hx, show firstP t.hd ((ha, hv) :: L.drop (i + 1)) = ha from rfl, if_neg hne1, if_neg (hT.hd_ne hm)]
        have hdec := hTL.dec (by simp) (fuel := t.count + 1) (by omega)
        rw [lastP_append] at hdec
        obtain ⟨cb, hcb, _⟩ := hT.cell hbm
        obtain ⟨ch, hch, _⟩ := hT.cell hm
        unfold insertMultiUseHint
        simp only [hdec, Option.bind_eq_bind, Option.bind_some, hT.key hbm, hcb, hch, hT.key hm, Option.map_some]
        have hkh : (if lt v.1 bv.1 = false then some (!lt hv.1 v.1) else some false) = some (decide (lt v.1 bv.1 = false ∧ lt hv.1 v.1 = false)) := by
          cases lt v.1 bv.1 <;> cases lt hv.1 v.1 <;> rfl
        rw [hkh]
        simp only [Option.bind_some, decide_eq_true_eq]
        have hil : i = (X' ++ [(ba, bv)]).length := by rw [← hX', hXl]
        by_cases hb : lt v.1 bv.1 = false ∧ lt hv.1 v.1 = false
        · have hidx : hintIdx lt i v.1 L = i := by rw [hL, hil]; exact hintIdx_fit hb.1 hb.2
          have hs := hM.2
          rw [hL, Wk, List.pairwise_append, List.pairwise_cons] at hs
          have hsX : ∀ x ∈ X' ++ [(ba, bv)], lt v.1 x.2.1 = false := by
            intro x hx
            rcases List.mem_append.1 hx with hx | hx
            · exact le_trans'' w ((List.pairwise_append.1 hs.1).2.2 x hx (ba, bv) (by simp)) hb.1
            · rw [List.mem_singleton.1 hx]; exact hb.1
          have hsY : ∀ x ∈ (ha, hv) :: Y, lt x.2.1 v.1 = false := by
            intro x hx
            rcases List.mem_cons.1 hx with rfl | hx
            · exact hb.2
            · exact le_trans'' w hb.2 (hs.2.1.1 x hx)
          have hdY : L.drop i = (ha, hv) :: Y := by rw [hd1, hx, hY]
          rw [hidx, hX, hX', hdY]
          have hs' : Wk lt ((X' ++ [(ba, bv)]) ++ (ha, hv) :: Y) := by rw [← hL]; exact hM.2
          have npo' := npo
          rw [hL] at npo'
          by_cases hr : cb.right = 0
          · rw [if_pos ⟨hb, hr⟩]
            have hTb := hTL
            rw [List.append_assoc] at hTb
            obtain ⟨ctx, hp, hpar, hside⟩ := Tr.rightOf hTb (fun c hc => by rw [hcb] at hc; rw [← Option.some.inj hc]; exact Or.inr hr)
            have := insert_at_multi (d := false) hs' hp np0 npo' hside hsX hsY
            rw [hpar] at this
            exact this
          · rw [if_neg (fun e => hr e.2)]
            have hl : ch.left = 0 := by
              rcases hTL.neighbours with ⟨c, c1, c2⟩ | ⟨c, c1, c2⟩
              · rw [hcb] at c1; rw [← Option.some.inj c1] at c2; exact absurd c2 hr
              · rw [hch] at c1; rw [← Option.some.inj c1] at c2; exact c2
            rw [if_pos ⟨hb, hl⟩]
            obtain ⟨ctx, hp, hpar, hside⟩ := Tr.leftOf hTL (fun c hc => by rw [hch] at hc; rw [← Option.some.inj hc]; exact Or.inr hl)
            have := insert_at_multi (d := true) hs' hp np0 npo' hside hsX hsY
            rw [hpar] at this
            exact this
        · have hidx : hintIdx lt i v.1 L = (notAbove lt v.1 L).length := by rw [hL, hil]; exact hintIdx_unfit hb
          rw [if_neg (fun e => hb e.1), if_neg (fun e => hb e.1), hidx]
          exact hEnd'

/-! ## the invariant of a history -/

structure MInv (lt : K → K → Bool) (h0 : Heap (K × V)) (hd : Ptr) (h : Heap (K × V)) (t : Tree0) (L : List (Elem K V)) : Prop where
  map : MultiAt lt h t L
  hdr : t.hd = hd
  off : ∀ q, q ∉ owned hd L → h q = h0 q
  fresh : ∀ q ∈ owned hd L, h0 q = none
  bound : ∃ B, ∀ q, B ≤ q → h0 q = none

theorem MInv.bounded {lt : K → K → Bool} {h0 : Heap (K × V)} {hd : Ptr} {h : Heap (K × V)} {t : Tree0} {L : List (Elem K V)} (i : MInv lt h0 hd h t L) : Bounded h := by
  obtain ⟨B, hB⟩ := i.bound
  obtain ⟨C, hC⟩ := list_bound (owned hd L)
  refine ⟨max B C, fun q hq => ?_⟩
  rw [i.off q (fun e => absurd (hC q e) (Nat.not_lt.2 (le_trans (le_max_right B C) hq)))]
  exact hB q (le_trans (le_max_left B C) hq)

theorem MInv.next {lt : K → K → Bool} {h0 : Heap (K × V)} {hd : Ptr} {h h' : Heap (K × V)} {t t' : Tree0} {L L' : List (Elem K V)} (i : MInv lt h0 hd h t L) (hm : MultiAt lt h' t' L') (ht : t'.hd = hd)
    (a : ∀ q ∈ owned hd L', q ∈ owned hd L ∨ h q = none) (b : ∀ q ∈ owned hd L, q ∉ owned hd L' → h' q = none) (c : ∀ q, q ∉ owned hd L → q ∉ owned hd L' → h' q = h q) : MInv lt h0 hd h' t' L' := by
  refine ⟨hm, ht, fun q hq => ?_, fun q hq => ?_, i.bound⟩
  · by_cases hL : q ∈ owned hd L
    · rw [b q hL hq, i.fresh q hL]
    · rw [c q hL hq, i.off q hL]
  · rcases a q hq with h1 | h1
    · exact i.fresh q h1
    · by_cases hL : q ∈ owned hd L
      · exact i.fresh q hL
      · rw [← i.off q hL]; exact h1

/-- after an insertion -/
theorem MInv.ins {lt : K → K → Bool} {h0 : Heap (K × V)} {hd : Ptr} {h : Heap (K × V)} {t : Tree0} {A B : List (Elem K V)} (i : MInv lt h0 hd h t (A ++ B)) {np : Ptr} (hf : h np = none) {v : K × V}
    {res : Option (Ptr × Heap (K × V) × Tree0)} (hr : MIns lt h t A B np v res) : ∃ h' t', res = some (np, h', t') ∧ MInv lt h0 hd h' t' (A ++ (np, v) :: B) ∧ position h' t' np = some A.length := by
  obtain ⟨h', h1, h2, h3⟩ := hr
  have hmem : ∀ q, q ∈ owned hd (A ++ (np, v) :: B) ↔ q = np ∨ q ∈ owned hd (A ++ B) := by
    intro q
    simp only [owned, addrs, List.map_append, List.map_cons, List.mem_cons, List.mem_append]
    tauto
  refine ⟨h', _, h1, i.next h2 i.hdr (fun q hq => ?_) (fun q hq hn => absurd ((hmem q).2 (Or.inr hq)) hn) (fun q hq hn => h3 q ?_), h2.1.position (X := A) (Y := (np, v) :: B)⟩
  · rcases (hmem q).1 hq with rfl | h
    · exact Or.inr hf
    · exact Or.inl h
  · rw [i.hdr]
    intro e
    rcases List.mem_cons.1 e with e | e
    · exact hn ((hmem q).2 (Or.inl e))
    · exact hq e

/-- after the removal of a middle part -/
theorem MInv.del {lt : K → K → Bool} {h0 : Heap (K × V)} {hd : Ptr} {h h' : Heap (K × V)} {t t' : Tree0} {X Y Z : List (Elem K V)} (i : MInv lt h0 hd h t (X ++ (Y ++ Z))) (hT : Tr h' t' (X ++ Z)) (ht : t'.hd = t.hd)
    (ho : Off (owned t.hd (X ++ (Y ++ Z))) h h') (hf : ∀ q ∈ addrs Y, h' q = none) : MInv lt h0 hd h' t' (X ++ Z) := by
  have hsub : (X ++ Z).Sublist (X ++ (Y ++ Z)) := List.Sublist.append (List.Sublist.refl _) (List.sublist_append_right _ _)
  refine i.next ⟨hT, i.map.2.sublist hsub⟩ (ht.trans i.hdr) ?_ ?_ (fun q hq _ => ho q (by rw [i.hdr]; exact hq))
  · intro q hq
    left
    rw [owned, addrs, List.mem_cons, List.mem_map] at hq ⊢
    rcases hq with hq | ⟨x, hx, rfl⟩
    · exact Or.inl hq
    · exact Or.inr ⟨x, hsub.subset hx, rfl⟩
  · intro q hq hn
    simp only [owned, addrs, List.map_append, List.mem_cons, List.mem_append, not_or] at hq hn
    rcases hq with hq | hq | hq | hq
    · exact absurd hq hn.1
    · exact absurd hq hn.2.1
    · exact hf q hq
    · exact absurd hq hn.2.2

theorem MInv.init {lt : K → K → Bool} {h0 : Heap (K × V)} {hd : Ptr} (hb : Bounded h0) (hn : h0 0 = none) (hd0 : hd ≠ 0) (hf : h0 hd = none) : MInv lt h0 hd (init h0 hd).1 (init h0 hd).2 [] := by
  refine ⟨⟨Tr.empty (put_same _ _ _) ?_, List.Pairwise.nil⟩, rfl, fun q hq => ?_, fun q hq => ?_, hb⟩
  · exact (put_ne _ _ (Ne.symm hd0)).trans hn
  · exact put_ne _ _ (fun e : q = hd => hq (by rw [e]; simp [owned]))
  · simp only [owned, addrs, List.map_nil, List.mem_singleton] at hq
    rw [hq]; exact hf

end Verif.Rb
