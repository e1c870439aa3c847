import Verif.ListWorld

/-!
# Every call on `mystl::list`s does what the specification says (used by C81)
-/

namespace Verif.DList

open Function (update)

variable {α : Type}

theorem some_of_ne {s : Option (List (Nat × α))} (h : s ≠ none) : ∃ L, s = some L := Option.ne_none_iff_exists'.mp h

theorem Rep.mid_nodup {h : Heap α} {o : Lst} {A M B : List (Nat × α)} (r : Rep h o (A ++ M ++ B)) : (ids M).Nodup := r.mid.1

theorem self_update {β : Type} (f : Nat → β) (i : Nat) : f = update f i (f i) := (Function.update_eq_self i f).symm

section
variable {fresh : Heap α → Nat} (hf : Allocator fresh) {w : World α} {S : State α} (I : Inv w S)
include hf I

theorem step_create (i : Nat) (vs : List α) (hi : S i = none) : ∃ w' S', step fresh w (.create i vs) = some w' ∧ Effect S (.create i vs) S' ∧ Inv w' S' := by
  obtain ⟨o, M, h', e, m, r, u⟩ := copyInit_ok hf vs I.bounded
  refine ⟨_, _, ?_, ⟨M, I.new ?_ (fun x hx => ?_), m, rfl⟩, inv1 I i (o' := o) (s' := some M) (h' := h') ?_ (fun L hL => by rw [← Option.some.inj hL]; exact r) (by simp)⟩
  · show (copyInit fresh vs w.heap).bind _ = _
    rw [e]; rfl
  · have := r.nodup
    simp only [nodes, List.nodup_cons] at this
    exact this.2
  · exact u.new x.1 (List.mem_cons_of_mem _ (List.mem_map_of_mem hx)) (by simp)
  · rw [hi]; exact u

theorem step_copy (i j : Nat) (hi : S i = none) (hj : S j ≠ none) : ∃ w' S', step fresh w (.copy i j) = some w' ∧ Effect S (.copy i j) S' ∧ Inv w' S' := by
  obtain ⟨L, hL⟩ := some_of_ne hj
  have rj := I.rep j L hL
  obtain ⟨w', S', e', ⟨M, n, m, s⟩, I'⟩ := step_create hf I i (L.map Prod.snd) hi
  refine ⟨w', S', ?_, ⟨L, M, hL, n, m, s⟩, I'⟩
  show (contents ((w.obj j).size + 1) (w.obj j) w.heap).bind _ = _
  rw [contents_ok rj (by rw [rj.size]; omega)]
  exact e'

theorem step_pushFront (i : Nat) (v : α) (hi : S i ≠ none) : ∃ w' S', step fresh w (.pushFront i v) = some w' ∧ Effect S (.pushFront i v) S' ∧ Inv w' S' := by
  obtain ⟨L, hL⟩ := some_of_ne hi
  obtain ⟨p, h', e, pn, r, u⟩ := pushFront_ok hf (I.rep i L hL) I.bounded v
  refine ⟨_, _, ?_, ⟨L, p, hL, I.new (by simp) (by simpa using pn), rfl⟩, inv1_rep I hL (o' := ⟨(w.obj i).node, (w.obj i).size + 1⟩) rfl u r⟩
  show (pushFront fresh (w.obj i) v w.heap).bind _ = _
  rw [e]; rfl

theorem step_pushBack (i : Nat) (v : α) (hi : S i ≠ none) : ∃ w' S', step fresh w (.pushBack i v) = some w' ∧ Effect S (.pushBack i v) S' ∧ Inv w' S' := by
  obtain ⟨L, hL⟩ := some_of_ne hi
  obtain ⟨p, h', e, pn, r, u⟩ := pushBack_ok hf (I.rep i L hL) I.bounded v
  refine ⟨_, _, ?_, ⟨L, p, hL, I.new (by simp) (by simpa using pn), rfl⟩, inv1_rep I hL (o' := ⟨(w.obj i).node, (w.obj i).size + 1⟩) rfl u r⟩
  show (pushBack fresh (w.obj i) v w.heap).bind _ = _
  rw [e]; rfl

theorem step_insert (i k : Nat) (v : α) {L : List (Nat × α)} (hL : S i = some L) (hk : k ≤ L.length) : ∃ w' S', step fresh w (.insert i k v) = some w' ∧ Effect S (.insert i k v) S' ∧ Inv w' S' := by
  have r0 := I.rep i L hL
  have r1 : Rep w.heap (w.obj i) (L.take k ++ L.drop k) := by rw [List.take_append_drop]; exact r0
  obtain ⟨p, h', e, pn, r, u⟩ := insert1_ok hf r1 I.bounded v (start_head _ _)
  rw [List.take_append_drop] at u
  refine ⟨_, _, ?_, ⟨L, p, hL, I.new (by simp) (by simpa using pn), rfl⟩, inv1_rep I hL (o' := ⟨(w.obj i).node, (w.obj i).size + 1⟩) rfl u r⟩
  show (posAt w.heap (w.obj i) k).bind _ = _
  rw [posAt_ok r0 hk]
  show (insert1 fresh (w.obj i) _ v w.heap).bind _ = _
  rw [e]; rfl

theorem step_emplace (i k : Nat) (v : α) {L : List (Nat × α)} (hL : S i = some L) (hk : k ≤ L.length) : ∃ w' S', step fresh w (.emplace i k v) = some w' ∧ Effect S (.emplace i k v) S' ∧ Inv w' S' := by
  have r0 := I.rep i L hL
  have r1 : Rep w.heap (w.obj i) (L.take k ++ L.drop k) := by rw [List.take_append_drop]; exact r0
  obtain ⟨p, h', e, pn, r, u⟩ := emplace_ok hf r1 I.bounded v (start_head _ _)
  rw [List.take_append_drop] at u
  refine ⟨_, _, ?_, ⟨L, p, hL, I.new (by simp) (by simpa using pn), rfl⟩, inv1_rep I hL (o' := ⟨(w.obj i).node, (w.obj i).size + 1⟩) rfl u r⟩
  show (posAt w.heap (w.obj i) k).bind _ = _
  rw [posAt_ok r0 hk]
  show (emplace fresh (w.obj i) _ v w.heap).bind _ = _
  rw [e]; rfl

theorem step_insertRange (i k : Nat) (vs : List α) {L : List (Nat × α)} (hL : S i = some L) (hk : k ≤ L.length) :
    ∃ w' S', step fresh w (.insertRange i k vs) = some w' ∧ Effect S (.insertRange i k vs) S' ∧ Inv w' S' := by
  have r0 := I.rep i L hL
  have r1 : Rep w.heap (w.obj i) (L.take k ++ L.drop k) := by rw [List.take_append_drop]; exact r0
  obtain ⟨M, h', e, m, pn, r, u⟩ := insertRange_ok hf r1 I.bounded vs (start_head _ _)
  rw [List.take_append_drop] at u
  refine ⟨_, _, ?_, ⟨L, M, hL, I.new r.mid_nodup pn, m, rfl⟩, inv1_rep I hL (o' := ⟨(w.obj i).node, (w.obj i).size + vs.length⟩) rfl u r⟩
  show (posAt w.heap (w.obj i) k).bind _ = _
  rw [posAt_ok r0 hk]
  show (insertRange fresh (w.obj i) _ vs w.heap).bind _ = _
  rw [e]; rfl

theorem step_resize (i n : Nat) (v : α) (hi : S i ≠ none) : ∃ w' S', step fresh w (.resize i n v) = some w' ∧ Effect S (.resize i n v) S' ∧ Inv w' S' := by
  obtain ⟨L, hL⟩ := some_of_ne hi
  have r0 := I.rep i L hL
  obtain ⟨M, h', e, m, pn, r, u⟩ := resize_ok hf r0 I.bounded n v (fuel := (w.obj i).size + 1) (by rw [r0.size]; omega)
  refine ⟨_, _, ?_, ⟨L, M, hL, I.new (Rep.mid_nodup (B := []) (by simpa using r)) pn, m, rfl⟩, inv1_rep I hL (o' := ⟨(w.obj i).node, n⟩) rfl u r⟩
  show (resize fresh ((w.obj i).size + 1) (w.obj i) n v w.heap).bind _ = _
  rw [e]; rfl

theorem step_assign (i : Nat) (vs : List α) (hi : S i ≠ none) : ∃ w' S', step fresh w (.assign i vs) = some w' ∧ Effect S (.assign i vs) S' ∧ Inv w' S' := by
  obtain ⟨L, hL⟩ := some_of_ne hi
  have r0 := I.rep i L hL
  obtain ⟨L', M, h', e, m, hid, pn, r, u⟩ := assign_ok hf r0 I.bounded vs (fuel := (w.obj i).size + 1) (by rw [r0.size]; omega)
  refine ⟨_, _, ?_, ⟨L, L', M, hL, I.new ?_ pn, m, hid, rfl⟩, inv1_rep I hL (o' := ⟨(w.obj i).node, vs.length⟩) rfl u r⟩
  · show (assign fresh ((w.obj i).size + 1) (w.obj i) vs w.heap).bind _ = _
    rw [e]; rfl
  · have := r.nodup
    simp only [nodes, List.nodup_cons, hid, List.nodup_append] at this
    exact this.2.2.1

theorem step_copyAssign (i j : Nat) (hi : S i ≠ none) (hj : S j ≠ none) : ∃ w' S', step fresh w (.copyAssign i j) = some w' ∧ Effect S (.copyAssign i j) S' ∧ Inv w' S' := by
  by_cases hij : i = j
  · refine ⟨w, S, ?_, ?_, I⟩
    · show (if i = j then some w else _) = _
      rw [if_pos hij]
    · show (if i = j then S = S else _)
      rw [if_pos hij]
  · obtain ⟨K, hK⟩ := some_of_ne hj
    have rj := I.rep j K hK
    obtain ⟨w', S', e', ⟨L, L', M, hL, n, m, hid, s⟩, I'⟩ := step_assign hf I i (K.map Prod.snd) hi
    refine ⟨w', S', ?_, ?_, I'⟩
    · show (if i = j then some w else ((contents ((w.obj j).size + 1) (w.obj j) w.heap).bind _)) = _
      rw [if_neg hij, contents_ok rj (by rw [rj.size]; omega)]
      exact e'
    · show (if i = j then S' = S else _)
      rw [if_neg hij]
      exact ⟨K, L, L', M, hK, hL, n, m, by rw [hid, List.length_map], s⟩

end

section
variable (fresh : Heap α → Nat) {w : World α} {S : State α} (I : Inv w S)
include I

theorem step_moveNew (i j : Nat) (hi : S i = none) (hj : S j ≠ none) : ∃ w' S', step fresh w (.moveNew i j) = some w' ∧ Effect S (.moveNew i j) S' ∧ Inv w' S' := by
  obtain ⟨L, hL⟩ := some_of_ne hj
  have hij : i ≠ j := by rintro rfl; exact hj hi
  have rj := I.rep j L hL
  refine ⟨_, _, rfl, rfl, ?_⟩
  rw [hL]
  refine inv2 I hij (o' := w.obj j) (x' := ⟨0, 0⟩) (s := some L) (t := none) (h' := w.heap) ?_ (fun L' e => by rw [← Option.some.inj e]; exact rj) (by simp) (by simp) (fun _ => rfl) (by simp [own])
  rw [hi, hL]
  simpa [own] using Upd.refl w.heap (nodes (w.obj j) L)

theorem step_destroy (i : Nat) : ∃ w' S', step fresh w (.destroy i) = some w' ∧ Effect S (.destroy i) S' ∧ Inv w' S' := by
  cases hS : S i with
  | none =>
    refine ⟨⟨w.heap, update w.obj i ⟨0, 0⟩⟩, _, ?_, rfl, inv1 I i (s' := none) (o' := ⟨0, 0⟩) (by rw [hS]; exact Upd.refl _ _) (by simp) (fun _ => rfl)⟩
    show (destruct ((w.obj i).size + 1) (w.obj i) w.heap).bind _ = _
    rw [destruct_null _ _ (I.null i hS)]; rfl
  | some L =>
    have r0 := I.rep i L hS
    obtain ⟨h', e, u⟩ := destruct_ok r0 (fuel := (w.obj i).size + 1) (by rw [r0.size]; omega)
    refine ⟨⟨h', update w.obj i ⟨0, 0⟩⟩, _, ?_, rfl, inv1 I i (s' := none) (o' := ⟨0, 0⟩) (by rw [hS]; exact u) (by simp) (fun _ => rfl)⟩
    show (destruct ((w.obj i).size + 1) (w.obj i) w.heap).bind _ = _
    rw [e]; rfl

theorem step_popFront (i : Nat) {L : List (Nat × α)} (hL : S i = some L) (hne : L ≠ []) : ∃ w' S', step fresh w (.popFront i) = some w' ∧ Effect S (.popFront i) S' ∧ Inv w' S' := by
  obtain ⟨e, B, rfl⟩ := List.exists_cons_of_ne_nil hne
  obtain ⟨h', e', r, u⟩ := popFront_ok (I.rep i _ hL)
  refine ⟨_, _, ?_, ⟨_, hL, rfl⟩, inv1_rep I hL (o' := ⟨(w.obj i).node, B.length⟩) rfl u r⟩
  show (popFront (w.obj i) w.heap).bind _ = _
  rw [e']; rfl

theorem step_popBack (i : Nat) {L : List (Nat × α)} (hL : S i = some L) (hne : L ≠ []) : ∃ w' S', step fresh w (.popBack i) = some w' ∧ Effect S (.popBack i) S' ∧ Inv w' S' := by
  rcases List.eq_nil_or_concat L with hh | ⟨A, e, rfl⟩
  · exact absurd hh hne
  · rw [List.concat_eq_append] at hL
    obtain ⟨h', e', r, u⟩ := popBack_ok (I.rep i _ hL)
    refine ⟨⟨h', update w.obj i ⟨(w.obj i).node, A.length⟩⟩, _, ?_, ⟨_, hL, rfl⟩, ?_⟩
    rotate_left
    · rw [List.dropLast_concat]
      exact inv1_rep I hL (o' := ⟨(w.obj i).node, A.length⟩) rfl u r
    · show (popBack (w.obj i) w.heap).bind _ = _
      rw [e']; rfl

theorem step_erase (i k : Nat) {L : List (Nat × α)} (hL : S i = some L) (hk : k < L.length) : ∃ w' S', step fresh w (.erase i k) = some w' ∧ Effect S (.erase i k) S' ∧ Inv w' S' := by
  have r0 := I.rep i L hL
  have hd : L.drop k = L[k] :: L.drop (k + 1) := List.drop_eq_getElem_cons hk
  have r1 : Rep w.heap (w.obj i) (L.take k ++ L[k] :: L.drop (k + 1)) := by rw [← hd, List.take_append_drop]; exact r0
  obtain ⟨h', e, r, u⟩ := erase_ok r1
  rw [← hd, List.take_append_drop] at u
  refine ⟨_, _, ?_, ⟨L, hL, rfl⟩, inv1_rep I hL (by rfl) u r⟩
  show (posAt w.heap (w.obj i) k).bind _ = _
  rw [posAt_ok r0 (by omega), hd]
  show (erase (w.obj i) L[k].1 w.heap).bind _ = _
  rw [e]; rfl

theorem step_eraseRange (i k n : Nat) {L : List (Nat × α)} (hL : S i = some L) (hk : k + n ≤ L.length) : ∃ w' S', step fresh w (.eraseRange i k n) = some w' ∧ Effect S (.eraseRange i k n) S' ∧ Inv w' S' := by
  have r0 := I.rep i L hL
  have hd : (L.drop k).take n ++ L.drop (k + n) = L.drop k := by rw [← List.drop_drop, List.take_append_drop]
  have hall : L.take k ++ (L.drop k).take n ++ L.drop (k + n) = L := by rw [List.append_assoc, hd, List.take_append_drop]
  have r1 : Rep w.heap (w.obj i) (L.take k ++ (L.drop k).take n ++ L.drop (k + n)) := by rw [hall]; exact r0
  obtain ⟨h', e, r, u⟩ := eraseRange_ok r1 (fuel := (w.obj i).size + 1) (by rw [r0.size]; simp; omega)
  rw [hall] at u
  rw [hd] at e
  refine ⟨_, _, ?_, ⟨L, hL, rfl⟩, inv1_rep I hL (by rfl) u r⟩
  show (posAt w.heap (w.obj i) k).bind _ = _
  rw [posAt_ok r0 (by omega)]
  show (posAt w.heap (w.obj i) (k + n)).bind _ = _
  rw [posAt_ok r0 hk]
  show (eraseRange ((w.obj i).size + 1) (w.obj i) (start (w.obj i) (L.drop k)) (start (w.obj i) (L.drop (k + n))) w.heap).bind _ = _
  rw [e]; rfl

theorem step_clear (i : Nat) (hi : S i ≠ none) : ∃ w' S', step fresh w (.clear i) = some w' ∧ Effect S (.clear i) S' ∧ Inv w' S' := by
  obtain ⟨L, hL⟩ := some_of_ne hi
  have r0 := I.rep i L hL
  obtain ⟨h', e, r, u⟩ := clear_ok r0 (fuel := (w.obj i).size + 1) (by rw [r0.size]; omega)
  refine ⟨_, _, ?_, rfl, inv1_rep I hL (L' := []) (o' := ⟨(w.obj i).node, 0⟩) rfl (by simpa [nodes] using u) r⟩
  show (clear ((w.obj i).size + 1) (w.obj i) w.heap).bind _ = _
  rw [e]; rfl

theorem step_moveAssign (i j : Nat) (hi : S i ≠ none) (hj : S j ≠ none) : ∃ w' S', step fresh w (.moveAssign i j) = some w' ∧ Effect S (.moveAssign i j) S' ∧ Inv w' S' := by
  obtain ⟨L, hL⟩ := some_of_ne hi
  obtain ⟨M, hM⟩ := some_of_ne hj
  have r0 := I.rep i L hL
  obtain ⟨h1, e1, r1, u1⟩ := clear_ok r0 (fuel := (w.obj i).size + 1) (by rw [r0.size]; omega)
  by_cases hij : i = j
  · refine ⟨⟨h1, update w.obj i ⟨(w.obj i).node, 0⟩⟩, update S i (some []), ?_, ?_, inv1_rep I hL (L' := []) (o' := ⟨(w.obj i).node, 0⟩) rfl (by simpa [nodes] using u1) r1⟩
    · show (if i = j then ((moveAssignSelf ((w.obj i).size + 1) (w.obj i) w.heap).bind _) else _) = _
      rw [if_pos hij]
      unfold moveAssignSelf
      rw [e1]
      show ((isEmpty (⟨(w.obj i).node, 0⟩ : Lst) h1).bind _).bind _ = _
      rw [isEmpty_ok r1]
      rfl
    · show (if i = j then _ = _ else _)
      rw [if_pos hij]
  · have ap := I.ap hij hL hM
    have rj := I.rep j M hM
    have rj1 : Rep h1 (w.obj j) M := rj.upd_frame u1 (fun q hq hm => ap q hm hq)
    have r1' : Rep h1 (⟨(w.obj i).node, 0⟩ : Lst) ([] ++ ([] : List (Nat × α))) := r1
    obtain ⟨h', e', ro, rx, ap', u'⟩ := splice_ok r1' rj1 (fun q hq => ap q (by simp [nodes] at hq ⊢; exact Or.inl hq))
    have hl : [] ++ M ++ [] = M := by simp
    rw [hl] at e' ro ap' u'
    refine ⟨⟨h', update (update w.obj i ⟨(w.obj i).node, M.length⟩) j ⟨(w.obj j).node, 0⟩⟩, update (update S i (some M)) j (some []), ?_, ?_, inv2_rep I hij hL hM rfl rfl ?_ ro rx ap'⟩
    · show (if i = j then _ else ((moveAssign ((w.obj i).size + 1) (w.obj i) (w.obj j) w.heap).bind _)) = _
      rw [if_neg hij]
      unfold moveAssign
      rw [e1]
      show (splice (w.obj i).node (⟨(w.obj i).node, 0⟩ : Lst) (w.obj j) h1).bind _ = _
      rw [show splice (w.obj i).node (⟨(w.obj i).node, 0⟩ : Lst) (w.obj j) h1 = _ from e']
      rfl
    · show (if i = j then _ else _ = _)
      rw [if_neg hij, hM]
    · exact (u1.add (nodes (w.obj j) M)).trans u'

theorem step_swap (i j : Nat) (hi : S i ≠ none) (hj : S j ≠ none) : ∃ w' S', step fresh w (.swap i j) = some w' ∧ Effect S (.swap i j) S' ∧ Inv w' S' := by
  obtain ⟨L, hL⟩ := some_of_ne hi
  obtain ⟨M, hM⟩ := some_of_ne hj
  refine ⟨_, _, rfl, rfl, ?_⟩
  by_cases hij : i = j
  · subst hij
    simp only [Function.update_eq_self]
    exact I
  · refine inv2 I hij (h' := w.heap) ?_ (fun X hX => I.rep j X hX) (fun hX => I.null j hX) (fun X hX => I.rep i X hX) (fun hX => I.null i hX) (I.apart j i (Ne.symm hij))
    exact (Upd.refl w.heap _).congr (fun _ => Iff.rfl) (fun q => by simp only [List.mem_append, or_comm])

theorem step_splice (i k j : Nat) (hij : i ≠ j) (hj : S j ≠ none) {L : List (Nat × α)} (hL : S i = some L) (hk : k ≤ L.length) : ∃ w' S', step fresh w (.splice i k j) = some w' ∧ Effect S (.splice i k j) S' ∧ Inv w' S' := by
  obtain ⟨M, hM⟩ := some_of_ne hj
  have r0 := I.rep i L hL
  have r1 : Rep w.heap (w.obj i) (L.take k ++ L.drop k) := by rw [List.take_append_drop]; exact r0
  obtain ⟨h', e', ro, rx, ap', u'⟩ := splice_ok r1 (I.rep j M hM) (by rw [List.take_append_drop]; exact I.ap hij hL hM)
  rw [List.take_append_drop] at u'
  refine ⟨_, _, ?_, ⟨L, M, hL, hM, rfl⟩, inv2_rep I hij hL hM (by rfl) (by rfl) u' ro rx ap'⟩
  show (posAt w.heap (w.obj i) k).bind _ = _
  rw [posAt_ok r0 hk]
  show (splice _ (w.obj i) (w.obj j) w.heap).bind _ = _
  rw [e']; rfl

theorem step_spliceOne (i k j m : Nat) (hij : i ≠ j) {L M : List (Nat × α)} (hL : S i = some L) (hk : k ≤ L.length) (hM : S j = some M) (hm : m < M.length) :
    ∃ w' S', step fresh w (.spliceOne i k j m) = some w' ∧ Effect S (.spliceOne i k j m) S' ∧ Inv w' S' := by
  have r0 := I.rep i L hL
  have rj := I.rep j M hM
  have hd : M.drop m = M[m] :: M.drop (m + 1) := List.drop_eq_getElem_cons hm
  have hall : M.take m ++ M[m] :: M.drop (m + 1) = M := by rw [← hd, List.take_append_drop]
  have r1 : Rep w.heap (w.obj i) (L.take k ++ L.drop k) := by rw [List.take_append_drop]; exact r0
  obtain ⟨h', e', ro, rx, ap', u'⟩ := spliceOne_ok r1 (C := M.take m) (e := M[m]) (D := M.drop (m + 1)) (by rw [hall]; exact rj) (by rw [hall, List.take_append_drop]; exact I.ap hij hL hM)
  rw [List.take_append_drop, hall] at u'
  refine ⟨_, _, ?_, ⟨L, M, M[m], hL, hM, List.getElem?_eq_getElem hm, rfl⟩, inv2_rep I hij hL hM (by rfl) (by rfl) u' ro rx ap'⟩
  show (posAt w.heap (w.obj i) k).bind _ = _
  rw [posAt_ok r0 hk]
  show (posAt w.heap (w.obj j) m).bind _ = _
  rw [posAt_ok rj (by omega), hd]
  show (spliceOne _ M[m].1 (w.obj i) (w.obj j) w.heap).bind _ = _
  rw [e']; rfl

theorem step_spliceRange (i k j m n : Nat) (hij : i ≠ j) {L M : List (Nat × α)} (hL : S i = some L) (hk : k ≤ L.length) (hM : S j = some M) (hm : m + n ≤ M.length) :
    ∃ w' S', step fresh w (.spliceRange i k j m n) = some w' ∧ Effect S (.spliceRange i k j m n) S' ∧ Inv w' S' := by
  have r0 := I.rep i L hL
  have rj := I.rep j M hM
  have hd : (M.drop m).take n ++ M.drop (m + n) = M.drop m := by rw [← List.drop_drop, List.take_append_drop]
  have hall : M.take m ++ (M.drop m).take n ++ M.drop (m + n) = M := by rw [List.append_assoc, hd, List.take_append_drop]
  have r1 : Rep w.heap (w.obj i) (L.take k ++ L.drop k) := by rw [List.take_append_drop]; exact r0
  obtain ⟨h', e', ro, rx, ap', u'⟩ := spliceRange_ok r1 (C := M.take m) (M := (M.drop m).take n) (D := M.drop (m + n)) (fuel := (w.obj j).size + 1) (by rw [hall]; exact rj)
    (by rw [hall, List.take_append_drop]; exact I.ap hij hL hM) (by rw [rj.size]; simp; omega)
  rw [List.take_append_drop, hall] at u'
  rw [hd] at e'
  refine ⟨_, _, ?_, ⟨L, M, hL, hM, rfl⟩, inv2_rep I hij hL hM (by rfl) (by rfl) u' ro rx ap'⟩
  show (posAt w.heap (w.obj i) k).bind _ = _
  rw [posAt_ok r0 hk]
  show (posAt w.heap (w.obj j) m).bind _ = _
  rw [posAt_ok rj (by omega)]
  show (posAt w.heap (w.obj j) (m + n)).bind _ = _
  rw [posAt_ok rj hm]
  show (spliceRange ((w.obj j).size + 1) _ (start (w.obj j) (M.drop m)) (start (w.obj j) (M.drop (m + n))) (w.obj i) (w.obj j) w.heap).bind _ = _
  rw [e']; rfl

theorem step_spliceOneSelf (i k m : Nat) {L : List (Nat × α)} (hL : S i = some L) (hk : k ≤ L.length) (hm : m < L.length) :
    ∃ w' S', step fresh w (.spliceOneSelf i k m) = some w' ∧ Effect S (.spliceOneSelf i k m) S' ∧ Inv w' S' := by
  have r0 := I.rep i L hL
  have hd : L.drop m = L[m] :: L.drop (m + 1) := List.drop_eq_getElem_cons hm
  have hall : L.take m ++ L[m] :: L.drop (m + 1) = L := by rw [← hd, List.take_append_drop]
  have rx : Rep w.heap (w.obj i) (L.take m ++ L[m] :: L.drop (m + 1)) := by rw [hall]; exact r0
  have fin : ∀ (L' : List (Nat × α)) (h' : Heap α), L' = (if m < k then (L.take k).eraseIdx m ++ L[m] :: L.drop k else L.take k ++ L[m] :: (L.drop k).eraseIdx (m - k)) →
      spliceOneSelf (start (w.obj i) (L.drop k)) L[m].1 (w.obj i) w.heap = some (w.obj i, h') → Rep h' (w.obj i) L' → Upd w.heap h' (nodes (w.obj i) L) (nodes (w.obj i) L') →
      ∃ w' S', step fresh w (.spliceOneSelf i k m) = some w' ∧ Effect S (.spliceOneSelf i k m) S' ∧ Inv w' S' := by
    intro L' h' hL' e' r' u'
    refine ⟨⟨h', update w.obj i (w.obj i)⟩, _, ?_, ⟨L, L[m], hL, List.getElem?_eq_getElem hm, rfl⟩, ?_⟩
    rotate_left
    · rw [← hL']
      exact inv1_rep I hL (o' := w.obj i) rfl u' r'
    · show (posAt w.heap (w.obj i) k).bind _ = _
      rw [posAt_ok r0 hk]
      show (posAt w.heap (w.obj i) m).bind _ = _
      rw [posAt_ok r0 (by omega), hd]
      show (spliceOneSelf _ L[m].1 (w.obj i) w.heap).bind _ = _
      rw [e']; rfl
  have ek : (L.take m ++ L.drop (m + 1)) = L.eraseIdx m := (List.eraseIdx_eq_take_drop_succ L m).symm
  rcases Nat.lt_trichotomy m k with hmk | hmk | hmk
  · have hAB : (L.take k).eraseIdx m ++ L.drop k = L.take m ++ L.drop (m + 1) := by
      rw [ek, ← List.eraseIdx_append_of_lt_length (by rw [List.length_take]; omega), List.take_append_drop]
    obtain ⟨h', e', r', u'⟩ := spliceOneSelf_ok rx hAB
    rw [hall] at u'
    exact fin _ h' (by rw [if_pos hmk]) e' r' u'
  · subst hmk
    refine fin L w.heap ?_ ?_ r0 (Upd.refl _ _)
    · rw [if_neg (by omega), hd, Nat.sub_self, List.eraseIdx_cons_zero]; exact hall.symm
    · unfold spliceOneSelf
      rw [hd, if_neg (by simp [start])]
  · have hAB : L.take k ++ (L.drop k).eraseIdx (m - k) = L.take m ++ L.drop (m + 1) := by
      rw [ek]
      have := List.eraseIdx_append_of_length_le (l := L.take k) (k := m) (by rw [List.length_take]; omega) (L.drop k)
      rw [List.take_append_drop, List.length_take, Nat.min_eq_left hk] at this
      exact this.symm
    obtain ⟨h', e', r', u'⟩ := spliceOneSelf_ok rx hAB
    rw [hall] at u'
    have hs : start (w.obj i) ((L.drop k).eraseIdx (m - k)) = start (w.obj i) (L.drop k) := by
      rw [List.drop_eq_getElem_cons (by omega : k < L.length)]
      obtain ⟨n, hn⟩ : ∃ n, m - k = n + 1 := ⟨m - k - 1, by omega⟩
      rw [hn]; rfl
    rw [hs] at e'
    exact fin _ h' (by rw [if_neg (by omega)]) e' r' u'

theorem step_removeIf (i : Nat) (p : α → Bool) (hi : S i ≠ none) : ∃ w' S', step fresh w (.removeIf i p) = some w' ∧ Effect S (.removeIf i p) S' ∧ Inv w' S' := by
  obtain ⟨L, hL⟩ := some_of_ne hi
  have r0 := I.rep i L hL
  obtain ⟨h', e, r, u⟩ := removeIf_ok p r0 (fuel := (w.obj i).size + 1) (by rw [r0.size]; omega)
  refine ⟨_, _, ?_, ⟨L, hL, rfl⟩, inv1_rep I hL (by rfl) u r⟩
  show (removeIf p ((w.obj i).size + 1) (w.obj i) w.heap).bind _ = _
  rw [e]; rfl

theorem step_unique (i : Nat) (p : α → α → Bool) (hi : S i ≠ none) : ∃ w' S', step fresh w (.unique i p) = some w' ∧ Effect S (.unique i p) S' ∧ Inv w' S' := by
  obtain ⟨L, hL⟩ := some_of_ne hi
  have r0 := I.rep i L hL
  obtain ⟨h', e, r, u⟩ := unique_ok p r0 (fuel := (w.obj i).size + 1) (by rw [r0.size]; omega)
  refine ⟨_, _, ?_, ⟨L, hL, rfl⟩, inv1_rep I hL (by rfl) u r⟩
  show (unique p ((w.obj i).size + 1) (w.obj i) w.heap).bind _ = _
  rw [e]; rfl

theorem step_merge (i j : Nat) (lt : α → α → Bool) (hi : S i ≠ none) (hj : S j ≠ none) : ∃ w' S', step fresh w (.merge i j lt) = some w' ∧ Effect S (.merge i j lt) S' ∧ Inv w' S' := by
  by_cases hij : i = j
  · refine ⟨w, S, ?_, ?_, I⟩
    · show (if i = j then some w else _) = _
      rw [if_pos hij]
    · show (if i = j then S = S else _)
      rw [if_pos hij]
  · obtain ⟨L, hL⟩ := some_of_ne hi
    obtain ⟨M, hM⟩ := some_of_ne hj
    have r0 := I.rep i L hL
    have rj := I.rep j M hM
    obtain ⟨h', e, ro, rx, ap, u⟩ := merge_ok lt r0 rj (I.ap hij hL hM) (fuel := (w.obj i).size + (w.obj j).size + 1) (by rw [r0.size, rj.size]; omega)
    refine ⟨⟨h', update (update w.obj i ⟨(w.obj i).node, L.length + M.length⟩) j ⟨(w.obj j).node, 0⟩⟩, update (update S i (some (Permute.mrg (ltp lt) L M))) j (some []), ?_, ?_, inv2_rep I hij hL hM rfl rfl u ro rx ap⟩
    · show (if i = j then some w else ((merge lt ((w.obj i).size + (w.obj j).size + 1) (w.obj i) (w.obj j) w.heap).bind _)) = _
      rw [if_neg hij, e]; rfl
    · show (if i = j then _ = S else _)
      rw [if_neg hij]
      exact ⟨L, M, hL, hM, rfl⟩

theorem step_sort (i : Nat) (lt : α → α → Bool) (hi : S i ≠ none) : ∃ w' S', step fresh w (.sort i lt) = some w' ∧ Effect S (.sort i lt) S' ∧ Inv w' S' := by
  obtain ⟨L, hL⟩ := some_of_ne hi
  have r0 := I.rep i L hL
  obtain ⟨h', e, r, u⟩ := sort_ok lt r0 (fuel := (w.obj i).size + 1) (by rw [r0.size]; omega)
  have J := inv1_rep I hL (o' := w.obj i) rfl u r
  rw [Function.update_eq_self] at J
  refine ⟨_, _, ?_, ⟨L, msort (ltp lt) (L.length + 1) L, hL, msort_perm _ _ _, fun hlt => ?_, rfl⟩, J⟩
  · show (sort lt ((w.obj i).size + 1) (w.obj i) w.heap).bind _ = _
    rw [e]; rfl
  · obtain ⟨s1, s2⟩ := msort_sorted (ltp_weak hlt) (L.length + 1) L (by omega)
    refine ⟨List.pairwise_map.mpr s1, fun v => ?_⟩
    exact s2 (0, v)

theorem step_reverse (i : Nat) (hi : S i ≠ none) : ∃ w' S', step fresh w (.reverse i) = some w' ∧ Effect S (.reverse i) S' ∧ Inv w' S' := by
  obtain ⟨L, hL⟩ := some_of_ne hi
  have r0 := I.rep i L hL
  obtain ⟨h', e, r, u⟩ := reverse_ok r0 (fuel := (w.obj i).size + 1) (by rw [r0.size]; omega)
  have J := inv1_rep I hL (o' := w.obj i) rfl u r
  rw [Function.update_eq_self] at J
  refine ⟨_, _, ?_, ⟨L, hL, rfl⟩, J⟩
  show (reverse ((w.obj i).size + 1) (w.obj i) w.heap).bind _ = _
  rw [e]; rfl

end

theorem step_ok {fresh : Heap α → Nat} (hf : Allocator fresh) {w : World α} {S : State α} (I : Inv w S) (op : Op α) (hp : Pre S op) :
    ∃ w' S', step fresh w op = some w' ∧ Effect S op S' ∧ Inv w' S' := by
  cases op with
  | create i vs => exact step_create hf I i vs hp
  | copy i j => exact step_copy hf I i j hp.1 hp.2
  | moveNew i j => exact step_moveNew fresh I i j hp.1 hp.2
  | destroy i => exact step_destroy fresh I i
  | pushFront i v => exact step_pushFront hf I i v hp
  | pushBack i v => exact step_pushBack hf I i v hp
  | popFront i => obtain ⟨L, h1, h2⟩ := hp; exact step_popFront fresh I i h1 h2
  | popBack i => obtain ⟨L, h1, h2⟩ := hp; exact step_popBack fresh I i h1 h2
  | insert i k v => obtain ⟨L, h1, h2⟩ := hp; exact step_insert hf I i k v h1 h2
  | emplace i k v => obtain ⟨L, h1, h2⟩ := hp; exact step_emplace hf I i k v h1 h2
  | insertRange i k vs => obtain ⟨L, h1, h2⟩ := hp; exact step_insertRange hf I i k vs h1 h2
  | erase i k => obtain ⟨L, h1, h2⟩ := hp; exact step_erase fresh I i k h1 h2
  | eraseRange i k n => obtain ⟨L, h1, h2⟩ := hp; exact step_eraseRange fresh I i k n h1 h2
  | clear i => exact step_clear fresh I i hp
  | resize i n v => exact step_resize hf I i n v hp
  | assign i vs => exact step_assign hf I i vs hp
  | copyAssign i j => exact step_copyAssign hf I i j hp.1 hp.2
  | moveAssign i j => exact step_moveAssign fresh I i j hp.1 hp.2
  | swap i j => exact step_swap fresh I i j hp.1 hp.2
  | splice i k j => obtain ⟨h0, h1, L, h2, h3⟩ := hp; exact step_splice fresh I i k j h0 h1 h2 h3
  | spliceOne i k j m => obtain ⟨h0, ⟨L, h1, h2⟩, M, h3, h4⟩ := hp; exact step_spliceOne fresh I i k j m h0 h1 h2 h3 h4
  | spliceOneSelf i k m => obtain ⟨L, h1, h2, h3⟩ := hp; exact step_spliceOneSelf fresh I i k m h1 h2 h3
  | spliceRange i k j m n => obtain ⟨h0, ⟨L, h1, h2⟩, M, h3, h4⟩ := hp; exact step_spliceRange fresh I i k j m n h0 h1 h2 h3 h4
  | removeIf i p => exact step_removeIf fresh I i p hp
  | unique i p => exact step_unique fresh I i p hp
  | merge i j lt => exact step_merge fresh I i j lt hp.1 hp.2
  | sort i lt => exact step_sort fresh I i lt hp
  | reverse i => exact step_reverse fresh I i hp

end Verif.DList
