import Verif.ListSplice

/-!
# `sort` of `mystl::list` (used by C81)
-/

namespace Verif.DList

open Verif.Permute

variable {α : Type}

/-- one step of the merging in `list_sort`: the run of `D` that comes before `b` is moved before it -/
theorem moveRun_ok (lt : α → α → Bool) {h : Heap α} {o : Lst} {P B D Q : List (Ptr × α)} {b d : Ptr × α} (r : Rep h o (P ++ (b :: B) ++ (d :: D) ++ Q)) (hd : lt d.2 b.2 = true) {fuel : Nat}
    (hf : D.length < fuel) : ∃ (M D' : List (Ptr × α)) (h' : Heap α), M = (d :: D).takeWhile (fun x => ltp lt x b) ∧ D' = (d :: D).dropWhile (fun x => ltp lt x b) ∧ M ++ D' = d :: D ∧ M ≠ []
      ∧ moveRun lt fuel (start o Q) b.1 d.1 b.2 h = some (start o (D' ++ Q), start o (B ++ D' ++ Q), h') ∧ Rep h' o (P ++ M ++ (b :: B) ++ D' ++ Q)
      ∧ Upd h h' (nodes o (P ++ (b :: B) ++ (d :: D) ++ Q)) (nodes o (P ++ M ++ (b :: B) ++ D' ++ Q)) := by
  obtain ⟨M, hMd⟩ : ∃ M, M = d :: D.takeWhile (fun d => lt d.2 b.2) := ⟨_, rfl⟩
  obtain ⟨D', hD'⟩ : ∃ D', D' = D.dropWhile (fun d => lt d.2 b.2) := ⟨_, rfl⟩
  have hsplit : M ++ D' = d :: D := by rw [hMd, hD']; simp
  have t1 : (d :: D).takeWhile (fun d => ltp lt d b) = M := by rw [hMd]; simp [ltp, hd]
  have t2 : (d :: D).dropWhile (fun d => ltp lt d b) = D' := by rw [hD']; simp [ltp, hd]
  have hM : M ≠ [] := by rw [hMd]; simp
  have r1 : Rep h o ((P ++ b :: B) ++ M ++ (D' ++ Q)) := by
    rw [show (P ++ b :: B) ++ M ++ (D' ++ Q) = P ++ (b :: B) ++ (M ++ D') ++ Q by simp, hsplit]; exact r
  obtain ⟨h1, h', e1, ru, e', ro, u⟩ := move_self (A := P) (B := b :: B ++ D' ++ Q) r1 hM (by simp)
  refine ⟨M, D', h', t1.symm, t2.symm, hsplit, hM, ?_, by simpa using ro, ?_⟩
  · have rd : Rep h o ((P ++ b :: B) ++ d :: (D ++ Q)) := by simpa using r
    have re := runEnd_ok lt b.2 fuel (C := P ++ b :: B ++ [d]) (D := D) (E := Q) (by simpa using r) hf
    rw [← hD'] at re
    unfold moveRun
    show (nxt h d.1).bind _ = _
    rw [rd.next]; show (runEnd lt (start o Q) b.2 h fuel (start o (D ++ Q))).bind _ = _
    rw [re]; show (prv h (start o (D' ++ Q))).bind _ = _
    rw [r1.gap.2]
    have sM : start o (M ++ (D' ++ Q)) = d.1 := by
      rw [hMd]; rfl
    rw [sM] at e1 e'
    show (unlinkNodes d.1 (finish o (P ++ b :: B ++ M)) h).bind _ = _
    rw [e1]
    have ru' : Rep h1 ⟨o.node, ((P ++ b :: B) ++ (D' ++ Q)).length⟩ (P ++ b :: (B ++ D' ++ Q)) := by simpa using ru
    show (nxt h1 b.1).bind _ = _
    rw [ru'.next, start_obj']
    show (linkNodes b.1 d.1 (finish o (P ++ b :: B ++ M)) h1).bind _ = _
    rw [show linkNodes b.1 d.1 (finish o (P ++ b :: B ++ M)) h1 = some h' from e']
    rfl
  · have k1 : P ++ b :: B ++ M ++ (D' ++ Q) = P ++ (b :: B) ++ (d :: D) ++ Q := by
      rw [← hsplit]; simp
    rw [k1] at u
    simpa using u

theorem sortLoop_ok (lt : α → α → Bool) : ∀ (fuel : Nat) {P B D Q : List (Ptr × α)} {o : Lst} {h : Heap α}, Rep h o (P ++ B ++ D ++ Q) → B.length + D.length < fuel →
    ∃ h', sortLoop lt (start o Q) fuel (start o (B ++ D ++ Q)) (start o (D ++ Q)) (start o (D ++ Q)) h = some h' ∧ Rep h' o (P ++ mrg (ltp lt) B D ++ Q)
      ∧ Upd h h' (nodes o (P ++ B ++ D ++ Q)) (nodes o (P ++ mrg (ltp lt) B D ++ Q))
  | 0, _, _, _, _, _, _, _, hk => by omega
  | fuel + 1, P, [], D, Q, o, h, r, _ => by
    rw [mrg_nil_left]
    refine ⟨h, ?_, by simpa using r, by simpa using Upd.refl h _⟩
    unfold sortLoop
    rw [if_neg (by simp)]
  | fuel + 1, P, b :: B, [], Q, o, h, r, _ => by
    rw [mrg_nil_right]
    refine ⟨h, ?_, by simpa using r, by simpa using Upd.refl h _⟩
    unfold sortLoop
    rw [if_neg (by simp)]
  | fuel + 1, P, b :: B, d :: D, Q, o, h, r, hk => by
    have rb : Rep h o (P ++ b :: (B ++ d :: D ++ Q)) := by simpa using r
    have rd : Rep h o ((P ++ b :: B) ++ d :: (D ++ Q)) := by simpa using r
    have c1 : start o (b :: B ++ d :: D ++ Q) ≠ start o (d :: D ++ Q) := by
      have := Rep.start_ne' (h := h) (o := o) (A := P) (M := b :: B) (B := d :: D ++ Q) (by simpa using r) (by simp)
      simpa using this
    have c2 : start o (d :: D ++ Q) ≠ start o Q := r.start_ne' (by simp)
    rw [mrg_run]
    by_cases hd : lt d.2 b.2 = true
    · obtain ⟨M, D', h1, hM, hD', hs, hne, e1, r1, u1⟩ := moveRun_ok lt r hd (fuel := fuel + 1) (by simp at hk; omega)
      rw [← hM, ← hD']
      obtain ⟨h', e', r', u'⟩ := sortLoop_ok lt fuel (P := P ++ M ++ [b]) (B := B) (D := D') (Q := Q) (by simpa using r1) (by
        have := congrArg List.length hs
        have h0 : 0 < M.length := List.length_pos_iff.mpr hne
        simp at this hk; omega)
      have k : ∀ X, P ++ M ++ [b] ++ X ++ Q = P ++ (M ++ b :: X) ++ Q := by simp
      rw [k] at r' u'
      refine ⟨h', ?_, r', u1.trans (by simpa using u')⟩
      unfold sortLoop
      rw [if_pos ⟨c1, c2⟩]
      show (value h d.1).bind _ = _
      rw [rd.val]; show (value h b.1).bind _ = _
      rw [rb.val]
      show (if lt d.2 b.2 then ((moveRun lt (fuel + 1) (start o Q) b.1 d.1 b.2 h).bind _) else _) = _
      rw [if_pos hd, e1]
      show sortLoop lt (start o Q) fuel (start o (B ++ D' ++ Q)) (if d.1 = d.1 then start o (D' ++ Q) else d.1) (start o (D' ++ Q)) h1 = _
      rw [if_pos rfl]
      exact e'
    · have t1 : (d :: D).takeWhile (fun d => ltp lt d b) = [] := by simp [ltp, hd]
      have t2 : (d :: D).dropWhile (fun d => ltp lt d b) = d :: D := by simp [ltp, hd]
      rw [t1, t2]
      obtain ⟨h', e', r', u'⟩ := sortLoop_ok lt fuel (P := P ++ [b]) (B := B) (D := d :: D) (Q := Q) (by simpa using r) (by simp at hk ⊢; omega)
      refine ⟨h', ?_, by simpa using r', by simpa using u'⟩
      unfold sortLoop
      rw [if_pos ⟨c1, c2⟩]
      show (value h d.1).bind _ = _
      rw [rd.val]; show (value h b.1).bind _ = _
      rw [rb.val]
      show (if lt d.2 b.2 then _ else ((nxt h b.1).bind _)) = _
      rw [if_neg hd, rb.next]
      exact e'

/-- the order in which `list_sort` leaves the nodes -/
def msort {β : Type} (lt : β → β → Bool) : Nat → List β → List β
  | 0, S => S
  | d + 1, S => if S.length < 2 then S else mrg lt (msort lt d (S.take (S.length / 2))) (msort lt d (S.drop (S.length / 2)))

theorem msort_perm {β : Type} (lt : β → β → Bool) : ∀ (d : Nat) (S : List β), (msort lt d S).Perm S
  | 0, S => List.Perm.refl S
  | d + 1, S => by
    unfold msort
    split_ifs
    · exact List.Perm.refl S
    · refine (mrg_perm _ _).trans (((msort_perm lt d _).append (msort_perm lt d _)).trans ?_)
      rw [List.take_append_drop]

theorem msort_len {β : Type} (lt : β → β → Bool) (d : Nat) (S : List β) : (msort lt d S).length = S.length := (msort_perm lt d S).length_eq

theorem msort_sorted {β : Type} {lt : β → β → Bool} (hlt : StrictWeak lt) : ∀ (d : Nat) (S : List β), S.length ≤ d → Sorted lt (msort lt d S) ∧ ∀ x, (msort lt d S).filter (equiv lt x) = S.filter (equiv lt x)
  | 0, S, hS => by
    have : S = [] := List.length_eq_zero_iff.mp (by omega)
    subst this
    exact ⟨List.Pairwise.nil, fun _ => rfl⟩
  | d + 1, S, hS => by
    unfold msort
    split_ifs with hl
    · refine ⟨?_, fun _ => rfl⟩
      match S, hl with
      | [], _ => exact List.Pairwise.nil
      | [_], _ => exact List.pairwise_singleton _ _
    · have h1 := msort_sorted hlt d (S.take (S.length / 2)) (by rw [List.length_take]; omega)
      have h2 := msort_sorted hlt d (S.drop (S.length / 2)) (by rw [List.length_drop]; omega)
      refine ⟨mrg_sorted hlt _ _ h1.1 h2.1, fun x => ?_⟩
      rw [mrg_stable hlt x _ _ h1.1, h1.2, h2.2, ← List.filter_append, List.take_append_drop]

theorem ltp_weak {lt : α → α → Bool} (hlt : StrictWeak lt) : StrictWeak (ltp lt) := ⟨fun a b => hlt.asymm a.2 b.2, fun a b c => hlt.trans_neg a.2 b.2 c.2⟩

theorem listSort_ok (lt : α → α → Bool) (fuel : Nat) : ∀ (d : Nat) {P S Q : List (Ptr × α)} {o : Lst} {h : Heap α}, Rep h o (P ++ S ++ Q) → S.length < d → S.length < fuel →
    ∃ h', listSort lt fuel d (start o (S ++ Q)) (start o Q) S.length h = some (start o (msort (ltp lt) d S ++ Q), h') ∧ Rep h' o (P ++ msort (ltp lt) d S ++ Q)
      ∧ Upd h h' (nodes o (P ++ S ++ Q)) (nodes o (P ++ msort (ltp lt) d S ++ Q))
  | 0, _, _, _, _, _, _, hk, _ => by omega
  | d + 1, P, S, Q, o, h, r, hk, hf => by
    by_cases h2 : S.length < 2
    · have hm : msort (ltp lt) (d + 1) S = S := by unfold msort; rw [if_pos h2]
      rw [hm]
      refine ⟨h, ?_, r, Upd.refl h _⟩
      unfold listSort
      rw [if_pos h2]
    · by_cases h3 : S.length = 2
      · -- two elements
        obtain ⟨a, b, rfl⟩ : ∃ a b, S = [a, b] := by
          match S, h3 with
          | [a, b], _ => exact ⟨a, b, rfl⟩
        have hm : msort (ltp lt) (d + 1) [a, b] = if ltp lt b a then [b, a] else [a, b] := by
          unfold msort
          rw [if_neg h2]
          have m1 : ∀ x : Ptr × α, msort (ltp lt) d [x] = [x] := by intro x; cases d <;> simp [msort]
          have e1 : ([a, b] : List (Ptr × α)).take ([a, b].length / 2) = [a] := by simp
          have e2 : ([a, b] : List (Ptr × α)).drop ([a, b].length / 2) = [b] := by simp
          rw [e1, e2, m1, m1, mrg_cons, mrg_nil_left, mrg_nil_right]
        have ra : Rep h o (P ++ a :: (b :: Q)) := by simpa using r
        have rb : Rep h o ((P ++ [a]) ++ b :: Q) := by simpa using r
        have rq : Rep h o ((P ++ [a] ++ [b]) ++ Q) := by simpa using r
        have hp : prv h (start o Q) = some b.1 := by rw [rq.gap.2, finish_append]
        by_cases hlt : lt b.2 a.2 = true
        · rw [hm, if_pos (by exact hlt)]
          have rm : Rep h o ((P ++ [a]) ++ [b] ++ Q) := by simpa using r
          obtain ⟨h1, h', e1, ru, e', ro, u⟩ := move_self (A := P) (B := a :: Q) rm (by simp) (by simp)
          rw [finish_append] at e1 e'
          refine ⟨h', ?_, by simpa using ro, by simpa using u⟩
          unfold listSort
          rw [if_neg h2, if_pos h3]
          show (prv h (start o Q)).bind _ = _
          rw [hp]; show (value h b.1).bind _ = _
          rw [rb.val]; show (value h a.1).bind _ = _
          rw [ra.val]
          show (if lt b.2 a.2 then ((unlinkNodes b.1 b.1 h).bind _) else _) = _
          rw [if_pos hlt, show unlinkNodes b.1 b.1 h = some h1 from e1]
          show (linkNodes a.1 b.1 b.1 h1).bind _ = _
          rw [show linkNodes a.1 b.1 b.1 h1 = some h' from e']
          rfl
        · rw [hm, if_neg (by exact hlt)]
          refine ⟨h, ?_, r, Upd.refl h _⟩
          unfold listSort
          rw [if_neg h2, if_pos h3]
          show (prv h (start o Q)).bind _ = _
          rw [hp]; show (value h b.1).bind _ = _
          rw [rb.val]; show (value h a.1).bind _ = _
          rw [ra.val]
          show (if lt b.2 a.2 then _ else some (a.1, h)) = _
          rw [if_neg hlt]
          rfl
      · obtain ⟨S1, hS1⟩ : ∃ S1, S1 = S.take (S.length / 2) := ⟨_, rfl⟩
        obtain ⟨S2, hS2⟩ : ∃ S2, S2 = S.drop (S.length / 2) := ⟨_, rfl⟩
        have hS : S = S1 ++ S2 := by rw [hS1, hS2, List.take_append_drop]
        have l1 : S1.length = S.length / 2 := by rw [hS1, List.length_take]; omega
        have l2 : S2.length = S.length - S.length / 2 := by rw [hS2, List.length_drop]
        have hm : msort (ltp lt) (d + 1) S = mrg (ltp lt) (msort (ltp lt) d S1) (msort (ltp lt) d S2) := by
          rw [msort, if_neg h2, hS1, hS2]
        rw [hm]
        have adv : advance h (S.length / 2) (start o (S ++ Q)) = some (start o (S2 ++ Q)) := by
          have := advance_ok (h := h) (o := o) (S.length / 2) (A := P) (B := S ++ Q) (by simpa using r) (by simp; omega)
          rw [this, hS2, List.drop_append_of_le_length (by omega)]
        have ra : Rep h o (P ++ S1 ++ (S2 ++ Q)) := by rw [hS] at r; simpa using r
        obtain ⟨h1, e1, r1, u1⟩ := listSort_ok lt fuel d ra (by omega) (by omega)
        obtain ⟨T1, hT1⟩ : ∃ T1, T1 = msort (ltp lt) d S1 := ⟨_, rfl⟩
        rw [← hT1] at e1 r1 u1 ⊢
        have rb : Rep h1 o ((P ++ T1) ++ S2 ++ Q) := by simpa using r1
        obtain ⟨h2', e2, r2, u2⟩ := listSort_ok lt fuel d rb (by omega) (by omega)
        obtain ⟨T2, hT2⟩ : ∃ T2, T2 = msort (ltp lt) d S2 := ⟨_, rfl⟩
        rw [← hT2] at e2 r2 u2 ⊢
        have t1 : T1.length = S1.length := by rw [hT1]; exact msort_len _ _ _
        have t2 : T2.length = S2.length := by rw [hT2]; exact msort_len _ _ _
        obtain ⟨b, B, hB⟩ := List.exists_cons_of_ne_nil (l := T1) (by intro hh; rw [hh] at t1; simp at t1; omega)
        obtain ⟨c, D, hD⟩ := List.exists_cons_of_ne_nil (l := T2) (by intro hh; rw [hh] at t2; simp at t2; omega)
        clear hT1 hT2
        subst hB
        subst hD
        have u12 : Upd h h2' (nodes o (P ++ S ++ Q)) (nodes o (P ++ b :: B ++ c :: D ++ Q)) := by
          rw [hS]
          exact (u1.of_eq (M := nodes o (P ++ (S1 ++ S2) ++ Q)) (M' := nodes o (P ++ b :: B ++ S2 ++ Q)) (by simp) (by simp)).trans u2
        have rb2 : Rep h2' o (P ++ b :: (B ++ c :: D ++ Q)) := by simpa using r2
        have rc2 : Rep h2' o ((P ++ b :: B) ++ c :: (D ++ Q)) := by simpa using r2
        have lenB : B.length + 1 = S1.length := by simpa using t1
        have lenD : D.length + 1 = S2.length := by simpa using t2
        have pre : ∀ K : Ptr × Heap α → Prop, (∃ y, (if lt c.2 b.2 then ((moveRun lt fuel (start o Q) b.1 c.1 b.2 h2').bind fun (m, f1', h) => (sortLoop lt (start o Q) fuel f1' m m h).bind fun h => some (c.1, h))
            else ((nxt h2' b.1).bind fun f1' => (sortLoop lt (start o Q) fuel f1' c.1 c.1 h2').bind fun h => some (b.1, h))) = some y ∧ K y) →
            ∃ y, listSort lt fuel (d + 1) (start o (S ++ Q)) (start o Q) S.length h = some y ∧ K y := by
          rintro K ⟨y, hy, hK⟩
          refine ⟨y, ?_, hK⟩
          unfold listSort
          rw [if_neg h2, if_neg h3]
          show (advance h (S.length / 2) (start o (S ++ Q))).bind _ = _
          rw [adv]
          have s1 : start o (S ++ Q) = start o (S1 ++ (S2 ++ Q)) := by rw [hS]; simp
          show (listSort lt fuel d (start o (S ++ Q)) (start o (S2 ++ Q)) (S.length / 2) h).bind _ = _
          rw [s1, ← l1, e1]
          show (listSort lt fuel d (start o (S2 ++ Q)) (start o Q) (S.length - S1.length) h1).bind _ = _
          rw [show S.length - S1.length = S2.length by rw [l1, l2], e2]
          show (value h2' c.1).bind _ = _
          rw [rc2.val]; show (value h2' b.1).bind _ = _
          rw [rb2.val]
          exact hy
        have fin : ∃ y, listSort lt fuel (d + 1) (start o (S ++ Q)) (start o Q) S.length h = some y ∧ (y.1 = start o (mrg (ltp lt) (b :: B) (c :: D) ++ Q) ∧ Rep y.2 o (P ++ mrg (ltp lt) (b :: B) (c :: D) ++ Q)
            ∧ Upd h y.2 (nodes o (P ++ S ++ Q)) (nodes o (P ++ mrg (ltp lt) (b :: B) (c :: D) ++ Q))) := by
          refine pre _ ?_
          by_cases hlt : lt c.2 b.2 = true
          · obtain ⟨M, D', h3', hM, hD', hs, hne, e3, r3, u3⟩ := moveRun_ok lt r2 hlt (fuel := fuel) (by omega)
            have lM : M.length + D'.length = D.length + 1 := by have := congrArg List.length hs; simpa using this
            have h0 : 0 < M.length := List.length_pos_iff.mpr hne
            obtain ⟨h', e', r', u'⟩ := sortLoop_ok lt fuel (P := P ++ M ++ [b]) (B := B) (D := D') (Q := Q) (by simpa using r3) (by omega)
            have hmr : mrg (ltp lt) (b :: B) (c :: D) = M ++ b :: mrg (ltp lt) B D' := by rw [mrg_run, ← hM, ← hD']
            have k : P ++ M ++ [b] ++ mrg (ltp lt) B D' ++ Q = P ++ mrg (ltp lt) (b :: B) (c :: D) ++ Q := by rw [hmr]; simp
            rw [k] at r' u'
            refine ⟨(c.1, h'), ?_, ?_, r', u12.trans (u3.trans (by simpa using u'))⟩
            · rw [if_pos hlt, e3]
              show (sortLoop lt (start o Q) fuel (start o (B ++ D' ++ Q)) (start o (D' ++ Q)) (start o (D' ++ Q)) h3').bind _ = _
              rw [e']; rfl
            · rw [hmr, hM]
              have : ltp lt c b = true := hlt
              simp [this, start]
          · obtain ⟨h', e', r', u'⟩ := sortLoop_ok lt fuel (P := P ++ [b]) (B := B) (D := c :: D) (Q := Q) (by simpa using r2) (by simp; omega)
            have hmr : mrg (ltp lt) (b :: B) (c :: D) = b :: mrg (ltp lt) B (c :: D) := by rw [mrg_cons, if_neg (by exact hlt)]
            have k : P ++ [b] ++ mrg (ltp lt) B (c :: D) ++ Q = P ++ mrg (ltp lt) (b :: B) (c :: D) ++ Q := by rw [hmr]; simp
            rw [k] at r' u'
            refine ⟨(b.1, h'), ?_, ?_, r', u12.trans (by simpa using u')⟩
            · rw [if_neg hlt, rb2.next]
              show (sortLoop lt (start o Q) fuel (start o (B ++ c :: D ++ Q)) c.1 c.1 h2').bind _ = _
              rw [show sortLoop lt (start o Q) fuel (start o (B ++ c :: D ++ Q)) c.1 c.1 h2' = some h' from e']
              rfl
            · rw [hmr]; rfl
        obtain ⟨⟨p, h'⟩, e', k1, k2, k3⟩ := fin
        exact ⟨h', by rw [e']; exact congrArg some (Prod.ext k1 rfl), k2, k3⟩

theorem sort_ok (lt : α → α → Bool) {L : List (Ptr × α)} {o : Lst} {h : Heap α} (r : Rep h o L) {fuel : Nat} (hf : L.length < fuel) :
    ∃ h', sort lt fuel o h = some h' ∧ Rep h' o (msort (ltp lt) (L.length + 1) L) ∧ Upd h h' (nodes o L) (nodes o (msort (ltp lt) (L.length + 1) L)) := by
  obtain ⟨h', e', r', u'⟩ := listSort_ok lt fuel (L.length + 1) (P := []) (S := L) (Q := []) (o := o) (h := h) (by simpa using r) (by omega) hf
  rw [List.append_nil] at e' r' u'
  refine ⟨h', ?_, by simpa using r', by simpa using u'⟩
  unfold sort
  rw [r.begin, r.size]
  show (listSort lt fuel (L.length + 1) (start o L) o.node L.length h).bind _ = _
  rw [show listSort lt fuel (L.length + 1) (start o L) o.node L.length h = _ from e']
  rfl

end Verif.DList
