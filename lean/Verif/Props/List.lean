import Verif.ListStep

/-!
# C81: `mystl::list` behaves as a sequence under every history of calls

`Op`, `Pre`, `Effect` (ListSpec.lean) say what the calls mean; `run` (ListClient.lean) performs them on the memory model of ListModel.lean.
-/

namespace Verif.DList

open Function (update)

variable {α : Type}

/-- everything a client can observe of a list object: that it is the sequence `L` -/
structure Shows (h : Heap α) (o : Lst) (L : List (Nat × α)) : Prop where
  /-- `size()` -/
  size : o.size = L.length
  /-- `empty()` -/
  empty : isEmpty o h = some (decide (L = []))
  /-- from `begin()` to `end()` -/
  forwards : contents (o.size + 1) o h = some (L.map Prod.snd)
  /-- from `rbegin()` to `rend()` -/
  backwards : contentsBack (o.size + 1) o h = some ((L.map Prod.snd).reverse)
  front : front o h = (L.map Prod.snd).head?
  back : back o h = (L.map Prod.snd).getLast?
  /-- the iterator at each place is the element's identity, and reads its value -/
  place : ∀ k e, L[k]? = some e → posAt h o k = some e.1 ∧ value h e.1 = some e.2
  /-- `end()`, which is not dereferenceable -/
  atEnd : posAt h o L.length = some o.node ∧ value h o.node = none
  /-- `++` and `--` -/
  steps : ∀ k p, k < L.length → posAt h o k = some p → posAt h o (k + 1) = nxt h p ∧ ∃ q, posAt h o (k + 1) = some q ∧ prv h q = some p
  /-- different places have different iterators -/
  distinct : (L.map Prod.fst).Nodup ∧ o.node ∉ L.map Prod.fst

theorem Rep.shows {h : Heap α} {o : Lst} {L : List (Nat × α)} (r : Rep h o L) : Shows h o L := by
  have hs := r.size
  refine ⟨hs, isEmpty_ok r, contents_ok r (by omega), contentsBack_ok r (by omega), front_ok r, back_ok r, ?_, ?_, ?_, ?_⟩
  · intro k e he
    obtain ⟨hk, rfl⟩ := List.getElem?_eq_some_iff.mp he
    have hd : L.drop k = L[k] :: L.drop (k + 1) := List.drop_eq_getElem_cons hk
    refine ⟨?_, ?_⟩
    · rw [posAt_ok r (le_of_lt hk), hd]; rfl
    · have r1 : Rep h o (L.take k ++ L[k] :: L.drop (k + 1)) := by rw [← hd, List.take_append_drop]; exact r
      exact r1.val
  · refine ⟨?_, value_none r.head⟩
    rw [posAt_ok r le_rfl, List.drop_length]; rfl
  · intro k p hk hp
    have hd : L.drop k = L[k] :: L.drop (k + 1) := List.drop_eq_getElem_cons hk
    have hp' : p = L[k].1 := by
      rw [posAt_ok r (le_of_lt hk), hd] at hp
      exact (Option.some.inj hp).symm
    have r1 : Rep h o (L.take k ++ L[k] :: L.drop (k + 1)) := by rw [← hd, List.take_append_drop]; exact r
    have r2 : Rep h o ((L.take k ++ [L[k]]) ++ L.drop (k + 1)) := by simpa using r1
    rw [posAt_ok r (by omega : k + 1 ≤ L.length), hp', r1.next]
    refine ⟨rfl, _, rfl, ?_⟩
    have := r2.gap.2
    rw [finish_append] at this
    exact this
  · have := r.nodup
    simp only [nodes, List.nodup_cons] at this
    exact ⟨this.2, this.1⟩

/-- the memory and the objects agree with the sequences `S`, and nothing else is allocated -/
structure Agrees (w : World α) (S : State α) : Prop where
  shows : ∀ i L, S i = some L → Shows w.heap (w.obj i) L
  /-- every allocated address is the end node or an element of exactly one list that exists -/
  noLeak : ∀ q, w.heap q ≠ none → ∃ i L, S i = some L ∧ (q = (w.obj i).node ∨ q ∈ L.map Prod.fst) ∧ ∀ j M, S j = some M → (q = (w.obj j).node ∨ q ∈ M.map Prod.fst) → j = i
  /-- an object that does not exist holds no node -/
  gone : ∀ i, S i = none → (w.obj i).node = 0
  null : w.heap 0 = none

theorem Inv.agrees {w : World α} {S : State α} (I : Inv w S) : Agrees w S := by
  have key : ∀ q i L, S i = some L → (q ∈ own (w.obj i) (S i) ↔ (q = (w.obj i).node ∨ q ∈ L.map Prod.fst)) := by
    intro q i L hL
    rw [hL]
    show q ∈ nodes (w.obj i) L ↔ _
    simp [nodes, ids]
  refine ⟨fun i L hL => (I.rep i L hL).shows, ?_, I.null, ?_⟩
  · intro q hq
    obtain ⟨i, hi⟩ := I.owned q hq
    cases hS : S i with
    | none => rw [hS] at hi; simp [own] at hi
    | some L =>
      refine ⟨i, L, hS, (key q i L hS).mp hi, ?_⟩
      intro j M hM hj
      by_contra hne
      exact I.apart j i hne q ((key q j M hM).mpr hj) hi
  · by_contra hq
    obtain ⟨i, hi⟩ := I.owned 0 hq
    cases hS : S i with
    | none => rw [hS] at hi; simp [own] at hi
    | some L => rw [hS] at hi; exact (I.rep i L hS).nonzero hi

theorem inv_empty : Inv (World.empty : World α) (fun _ => none) :=
  ⟨by simp, by simp [World.empty], by simp [own], by simp [World.empty], ⟨0, by simp [World.empty]⟩⟩

theorem run_ok {fresh : Heap α → Nat} (hf : Allocator fresh) : ∀ (ops : List (Op α)) {w : World α} {S : State α}, Inv w S → Valid S ops →
    ∃ w' S', run fresh w ops = some w' ∧ Effects S ops S' ∧ Inv w' S'
  | [], w, S, I, _ => ⟨w, S, rfl, rfl, I⟩
  | op :: ops, w, S, I, hv => by
    obtain ⟨w1, S1, e1, f1, I1⟩ := step_ok hf I op hv.1
    obtain ⟨w2, S2, e2, f2, I2⟩ := run_ok hf ops I1 (hv.2 S1 f1)
    refine ⟨w2, S2, ?_, ⟨S1, f1, f2⟩, I2⟩
    show (step fresh w op).bind _ = _
    rw [e1]; exact e2

/-- **C81.**  Whatever the allocator, after every history of calls that respects the preconditions: no null, dangling or freed pointer was used, every loop ended, every list object shows exactly the sequence
that the calls should have produced — sizes, both directions of traversal, ends, iterators — and all allocated memory belongs to exactly one existing list. -/
theorem c81_history {fresh : Heap α → Nat} (hf : Allocator fresh) (ops : List (Op α)) (hv : Valid (fun _ => none) ops) :
    ∃ w S, run fresh World.empty ops = some w ∧ Effects (fun _ => none) ops S ∧ Agrees w S := by
  obtain ⟨w, S, e, f, I⟩ := run_ok hf ops inv_empty hv
  exact ⟨w, S, e, f, I.agrees⟩

/-- every prefix of a history also leaves lists that agree with the specification, so the state between two calls is as good as the final one -/
theorem c81_prefix {fresh : Heap α → Nat} (hf : Allocator fresh) (ops more : List (Op α)) (hv : Valid (fun _ => none) (ops ++ more)) :
    ∃ w S w' S', run fresh World.empty ops = some w ∧ Agrees w S ∧ run fresh w more = some w' ∧ Effects (fun _ => none) ops S ∧ Effects S more S' ∧ Agrees w' S' := by
  have aux : ∀ (ops : List (Op α)) {w : World α} {S : State α}, Inv w S → Valid S (ops ++ more) →
      ∃ w1 S1, run fresh w ops = some w1 ∧ Effects S ops S1 ∧ Inv w1 S1 ∧ Valid S1 more := by
    intro ops
    induction ops with
    | nil => intro w S I hv; exact ⟨w, S, rfl, rfl, I, hv⟩
    | cons op ops ih =>
      intro w S I hv
      obtain ⟨w1, S1, e1, f1, I1⟩ := step_ok hf I op hv.1
      obtain ⟨w2, S2, e2, f2, I2, v2⟩ := ih I1 (hv.2 S1 f1)
      refine ⟨w2, S2, ?_, ⟨S1, f1, f2⟩, I2, v2⟩
      show (step fresh w op).bind _ = _
      rw [e1]; exact e2
  obtain ⟨w, S, e, f, I, v⟩ := aux ops inv_empty hv
  obtain ⟨w', S', e', f', I'⟩ := run_ok hf more I v
  exact ⟨w, S, w', S', e, I.agrees, e', f, f', I'.agrees⟩

/-- all lists destroyed: no memory is left -/
theorem c81_all_freed {fresh : Heap α → Nat} (hf : Allocator fresh) (ops : List (Op α)) (hv : Valid (fun _ => none) ops) (hd : ∀ S, Effects (fun _ => none) ops S → ∀ i, S i = none) :
    ∃ w, run fresh World.empty ops = some w ∧ ∀ q, w.heap q = none := by
  obtain ⟨w, S, e, f, A⟩ := c81_history hf ops hv
  refine ⟨w, e, fun q => ?_⟩
  by_contra hq
  obtain ⟨i, L, hL, _⟩ := A.noLeak q hq
  rw [hd S f i] at hL; simp at hL

/-- a state reached by calls that respect the preconditions -/
def Reached (fresh : Heap α → Nat) (w : World α) (S : State α) : Prop := ∃ ops, Valid (fun _ => none) ops ∧ run fresh World.empty ops = some w ∧ Inv w S

/-- `operator==`: two lists compare equal exactly when they have the same length and equal elements at every place -/
theorem c81_equal {fresh : Heap α → Nat} {w : World α} {S : State α} (R : Reached fresh w S) (eq : α → α → Bool) {i j : Nat} {L M : List (Nat × α)} (hi : S i = some L) (hj : S j = some M) :
    ∃ b, equal eq (L.length + 1) (w.obj i) (w.obj j) w.heap = some b ∧ (b = true ↔ List.Forall₂ (fun u v => eq u v = true) (L.map Prod.snd) (M.map Prod.snd)) := by
  obtain ⟨_, _, _, I⟩ := R
  exact equal_ok eq (I.rep i L hi) (I.rep j M hj) (by omega)

/-- `insert`, `emplace`, `erase` return the iterator to the place at which they worked -/
theorem c81_returned {fresh : Heap α → Nat} (hf : Allocator fresh) {w : World α} {S : State α} (R : Reached fresh w S) {i k : Nat} {L : List (Nat × α)} (hi : S i = some L) :
    (k ≤ L.length → ∃ p, posAt w.heap (w.obj i) k = some p ∧
      (∀ v, ∃ q o' h', insert1 fresh (w.obj i) p v w.heap = some (q, o', h') ∧ posAt h' o' k = some q ∧ value h' q = some v) ∧
      (∀ v, ∃ q o' h', emplace fresh (w.obj i) p v w.heap = some (q, o', h') ∧ posAt h' o' k = some q ∧ value h' q = some v) ∧
      (∀ vs, ∃ q o' h', insertRange fresh (w.obj i) p vs w.heap = some (q, o', h') ∧ posAt h' o' k = some q ∧ (vs = [] → q = p)))
    ∧ (k < L.length → ∃ p, posAt w.heap (w.obj i) k = some p ∧ ∃ q o' h', erase (w.obj i) p w.heap = some (q, o', h') ∧ posAt h' o' k = some q ∧ posAt w.heap (w.obj i) (k + 1) = some q) := by
  obtain ⟨_, _, _, I⟩ := R
  have r0 := I.rep i L hi
  have r1 : Rep w.heap (w.obj i) (L.take k ++ L.drop k) := by rw [List.take_append_drop]; exact r0
  constructor
  · intro hk
    have hl : (L.take k).length = k := by rw [List.length_take]; omega
    refine ⟨_, posAt_ok r0 hk, ?_, ?_, ?_⟩
    · intro v
      obtain ⟨p, h', e, _, r, _⟩ := insert1_ok hf r1 I.bounded v (start_head _ _)
      refine ⟨_, _, _, e, ?_, r.val⟩
      rw [posAt_ok r (by rw [List.length_append, hl]; omega), List.drop_append_of_le_length (by omega), List.drop_eq_nil_of_le (by omega)]; rfl
    · intro v
      obtain ⟨p, h', e, _, r, _⟩ := emplace_ok hf r1 I.bounded v (start_head _ _)
      refine ⟨_, _, _, e, ?_, r.val⟩
      rw [posAt_ok r (by rw [List.length_append, hl]; omega), List.drop_append_of_le_length (by omega), List.drop_eq_nil_of_le (by omega)]; rfl
    · intro vs
      obtain ⟨M, h', e, m, _, r, _⟩ := insertRange_ok hf r1 I.bounded vs (start_head _ _)
      refine ⟨_, _, _, e, ?_, ?_⟩
      · rw [List.append_assoc] at r
        rw [posAt_ok r (by rw [List.length_append, hl]; omega), List.drop_append_of_le_length (by omega), List.drop_eq_nil_of_le (by omega), start_head]; rfl
      · rintro rfl
        have : M = [] := List.map_eq_nil_iff.mp m
        subst this
        rw [List.nil_append, start_head]; rfl
  · intro hk
    have hd : L.drop k = L[k] :: L.drop (k + 1) := List.drop_eq_getElem_cons hk
    have hl : (L.take k).length = k := by rw [List.length_take]; omega
    rw [hd] at r1
    obtain ⟨h', e, r, _⟩ := erase_ok r1
    refine ⟨L[k].1, ?_, _, _, _, e, ?_, posAt_ok r0 (by omega)⟩
    · rw [posAt_ok r0 (le_of_lt hk), hd]; rfl
    · rw [posAt_ok r (by rw [List.length_append, hl]; omega)]
      have : (L.take k ++ L.drop (k + 1)).drop k = L.drop (k + 1) := by
        conv_lhs => rw [List.drop_append, hl, Nat.sub_self, List.drop_eq_nil_of_le (le_of_eq hl)]
        rfl
      rw [this]; cases L.drop (k + 1) <;> rfl

/-! ## Defects -/

/-- Defect: after `list b(std::move(a))` the old object holds a null node, and nothing can be done with it except destroying it, `clear`, `swap` or assigning an empty list: reading it, growing it, and
even *assigning* a non-empty list to it, by copy or by move, dereference the null pointer. -/
theorem c81_defect_moved_from {fresh : Heap α → Nat} (hf : Allocator fresh) {w : World α} {S : State α} (R : Reached fresh w S) {i j : Nat} (hi : S i = none) (hs : (w.obj i).size = 0)
    {M : List (Nat × α)} (hj : S j = some M) (hM : M ≠ []) (v : α) :
    isEmpty (w.obj i) w.heap = none ∧ step fresh w (.pushBack i v) = none ∧ step fresh w (.copyAssign i j) = none ∧ step fresh w (.moveAssign i j) = none ∧ step fresh w (.copy i i) = none := by
  obtain ⟨_, _, _, I⟩ := R
  have hn := I.null i hi
  have h0 := I.agrees.null
  have hij : i ≠ j := by rintro rfl; rw [hi] at hj; simp at hj
  have n0 : nxt w.heap (w.obj i).node = none := by rw [hn]; simp [nxt, h0]
  have rj := I.rep j M hj
  refine ⟨?_, ?_, ?_, ?_, ?_⟩
  · unfold isEmpty; rw [n0]; rfl
  · obtain ⟨p, h1, e1, p0, pn, pv, hs', _, _, _⟩ := create_ok hf I.bounded v
    show (pushBack fresh (w.obj i) v w.heap).bind _ = _
    unfold pushBack
    rw [e1]
    show ((linkBack (w.obj i).node p p h1).bind _).bind _ = _
    have hz : prv h1 (w.obj i).node = none := by rw [hn]; simp [prv, hs' 0 (fun h => p0 h.symm), h0]
    have : linkBack (w.obj i).node p p h1 = none := by
      unfold linkBack
      obtain ⟨h2, e2, _, k2, _⟩ := setNext_ok (h := h1) (p := p) (w.obj i).node (by rw [pv]; simp)
      show (setNext h1 p (w.obj i).node).bind _ = _
      rw [e2]
      show (prv h2 (w.obj i).node).bind _ = _
      have : prv h2 (w.obj i).node = prv h1 (w.obj i).node := by first | exact k2 _ | rw [k2]
      rw [this, hz]; rfl
    rw [this]; rfl
  · show (if i = j then _ else _) = _
    rw [if_neg hij]
    show (contents ((w.obj j).size + 1) (w.obj j) w.heap).bind _ = _
    rw [contents_ok rj (by rw [rj.size]; omega)]
    show (assign fresh _ (w.obj i) _ w.heap).bind _ = _
    unfold assign
    rw [n0]; rfl
  · show (if i = j then _ else _) = _
    rw [if_neg hij]
    show (moveAssign ((w.obj i).size + 1) (w.obj i) (w.obj j) w.heap).bind _ = _
    have hc : clear ((w.obj i).size + 1) (w.obj i) w.heap = some (w.obj i, w.heap) := by
      unfold clear
      rw [if_neg (by simp [hs])]
    have hsp : splice (w.obj i).node (w.obj i) (w.obj j) w.heap = none := by
      unfold splice
      rw [isEmpty_ok rj]
      show (if decide (M = []) = false then _ else _) = _
      rw [if_pos (by simp [hM])]
      show (nxt w.heap (w.obj j).node).bind _ = _
      rw [rj.begin]
      show (prv w.heap (w.obj j).node).bind _ = _
      rw [rj.last]
      obtain ⟨h1, e1, _, _, v1, s1, _⟩ := rep_unlink (A := []) (M := M) (B := []) (by simpa using rj) (f := start (w.obj j) M) (l := finish (w.obj j) M)
        (by have := ids_head_ne hM (w.obj j) []; rwa [List.append_nil] at this) (finish_last_ne hM (w.obj j) [])
      show (unlinkNodes (start (w.obj j) M) (finish (w.obj j) M) w.heap).bind _ = _
      rw [e1]
      show (linkNodes (w.obj i).node _ _ h1).bind _ = _
      have hz : prv h1 (w.obj i).node = none := by
        have : vl h1 (w.obj i).node = none := by rw [v1, hn]; simp [vl, h0]
        have : h1 (w.obj i).node = none := by
          unfold vl at this
          simpa using this
        simp [prv, this]
      unfold linkNodes
      rw [hz]; rfl
    unfold moveAssign
    rw [hc]
    show (splice (w.obj i).node (w.obj i) (w.obj j) w.heap).bind _ = _
    rw [hsp]; rfl
  · show (contents ((w.obj i).size + 1) (w.obj i) w.heap).bind _ = _
    unfold contents
    rw [n0]; rfl

/-- Defect: `x.remove(x.front())` — the argument is a reference to an element.  The predicate keeps the reference, the element is erased first, and the next comparison reads freed memory. -/
theorem c81_defect_remove_own_element {fresh : Heap α → Nat} {w : World α} {S : State α} (R : Reached fresh w S) {i : Nat} {a b : Nat × α} {L : List (Nat × α)} (hi : S i = some (a :: b :: L))
    (eq : α → α → Bool) (ha : eq a.2 a.2 = true) (fuel : Nat) : posAt w.heap (w.obj i) 0 = some a.1 ∧ removeRef eq a.1 fuel (w.obj i) w.heap = none := by
  obtain ⟨_, _, _, I⟩ := R
  have r0 := I.rep i _ hi
  have r1 : Rep w.heap (w.obj i) ([] ++ a :: (b :: L)) := r0
  refine ⟨posAt_ok r0 (Nat.zero_le _), ?_⟩
  obtain ⟨h', e, r, u⟩ := erase_ok r1
  have hd : value h' a.1 = none := by
    have : h' a.1 = none := by
      refine u.dead a.1 (by simp [nodes, ids]) ?_
      have := r1.nodup
      simp only [nodes, ids, List.nil_append, List.map_cons, List.nodup_cons] at this ⊢
      intro hm
      rcases List.mem_cons.mp hm with hm | hm
      · exact this.1 (by rw [← hm]; exact List.mem_cons_self)
      · exact this.2.1 hm
    simp [value, this]
  have rb : Rep h' ⟨(w.obj i).node, (b :: L).length⟩ ([] ++ b :: L) := r
  unfold removeRef
  rw [r0.begin]
  show removeRefLoop eq a.1 (w.obj i).node fuel a.1 (w.obj i) w.heap = none
  cases fuel with
  | zero => rfl
  | succ fuel =>
    unfold removeRefLoop
    rw [if_pos (show a.1 ≠ (w.obj i).node from r1.start_ne)]
    show (nxt w.heap a.1).bind _ = _
    rw [r1.next]
    show (value w.heap a.1).bind _ = _
    rw [r1.val]
    show (if eq a.2 a.2 then ((erase (w.obj i) a.1 w.heap).bind _) else _) = _
    rw [if_pos ha, e]
    show removeRefLoop eq a.1 (w.obj i).node fuel b.1 _ h' = none
    cases fuel with
    | zero => rfl
    | succ fuel =>
      unfold removeRefLoop
      rw [if_pos (show b.1 ≠ (w.obj i).node from rb.start_ne)]
      show (nxt h' b.1).bind _ = _
      rw [rb.next]
      show (value h' b.1).bind _ = _
      rw [rb.val]
      show (value h' a.1).bind _ = _
      rw [hd]; rfl

/-- Defect: `x.splice(x.begin(), x, first, last)` — moving a range within one list — does nothing, although the elements should now come first. -/
theorem c81_defect_splice_range_within {fresh : Heap α → Nat} {w : World α} {S : State α} (R : Reached fresh w S) {i m n : Nat} {L : List (Nat × α)} (hi : S i = some L) (hm : 0 < m) (hn : 0 < n)
    (hl : m + n ≤ L.length) (pos first last : Nat) : ∃ o' h', spliceRangeSelf pos first last (w.obj i) w.heap = some (o', h') ∧ Shows h' o' L ∧ ¬ Shows h' o' ((L.drop m).take n ++ L.take m ++ L.drop (m + n)) := by
  obtain ⟨_, _, _, I⟩ := R
  have r0 := I.rep i _ hi
  refine ⟨_, _, rfl, r0.shows, fun hh => ?_⟩
  have hd : L.drop m = L[m] :: L.drop (m + 1) := List.drop_eq_getElem_cons (by omega)
  obtain ⟨n, rfl⟩ : ∃ n', n = n' + 1 := ⟨n - 1, by omega⟩
  have ht : List.take (n + 1) (List.drop m L) = L[m] :: List.take n (List.drop (m + 1) L) := by rw [hd]; rfl
  have h1 := (hh.place 0 L[m] (by rw [ht]; rfl)).1
  have h2 := (r0.shows.place 0 L[0] (by simp)).1
  rw [h1] at h2
  have h3 := Option.some.inj h2
  have hnd := r0.shows.distinct.1
  have := (List.Nodup.getElem_inj_iff hnd (hi := by simp; omega) (hj := by simp; omega) (i := m) (j := 0)).mp (by simpa using h3)
  omega

/-! ## The hypotheses can be met -/

open Classical in
/-- an allocator: the first address beyond everything in use -/
noncomputable def bump (h : Heap α) : Nat := if hb : ∃ n, ∀ q, n ≤ q → h q = none then Nat.find hb + 1 else 1

theorem bump_allocator : Allocator (bump : Heap α → Nat) := by
  intro h hb
  have hb' : ∃ n, ∀ q, n ≤ q → h q = none := hb
  classical
  unfold bump
  rw [dif_pos hb']
  refine ⟨by omega, ?_⟩
  have := Nat.find_spec hb'
  refine this _ ?_
  omega

/-- a history: build a list, sort it, move part of it to another list, destroy the first -/
theorem demo_valid : Valid (fun _ => none) [Op.create 0 [3, 1, 2], .sort 0 (fun x y : Nat => decide (x < y)), .create 1 [], .spliceOne 1 0 0 1, .pushFront 1 7, .reverse 1, .destroy 0] := by
  refine ⟨rfl, ?_⟩
  rintro _ ⟨M, _, hM, rfl⟩
  refine ⟨by simp [Pre], ?_⟩
  rintro _ ⟨L, L', hL, hp, hs, rfl⟩
  have hl : L'.length = 3 := by
    simp at hL
    subst hL
    rw [hp.length_eq, ← List.length_map (f := Prod.snd), hM]; rfl
  refine ⟨by simp [Pre], ?_⟩
  rintro _ ⟨M2, _, hM2, rfl⟩
  have hM2' : M2 = [] := List.map_eq_nil_iff.mp hM2
  subst hM2'
  refine ⟨⟨by decide, ⟨[], by simp, by simp⟩, ⟨L', by simp, by omega⟩⟩, ?_⟩
  rintro _ ⟨A, B, e, hA, hB, he, rfl⟩
  refine ⟨by simp [Pre], ?_⟩
  rintro _ ⟨A2, p, hA2, _, rfl⟩
  refine ⟨by simp [Pre], ?_⟩
  rintro _ ⟨A3, hA3, rfl⟩
  exact ⟨trivial, fun _ _ => trivial⟩

example : ∃ w S, run bump World.empty [Op.create 0 [3, 1, 2], .sort 0 (fun x y : Nat => decide (x < y)), .create 1 [], .spliceOne 1 0 0 1, .pushFront 1 7, .reverse 1, .destroy 0] = some w
    ∧ Agrees w S := by
  obtain ⟨w, S, e, _, A⟩ := c81_history bump_allocator _ demo_valid
  exact ⟨w, S, e, A⟩

/-- a moved-from object as in `c81_defect_moved_from` -/
example (v : Nat) : ∃ w, run bump World.empty [Op.create 0 [3, 1, 2], .moveNew 1 0] = some w ∧ step bump w (.moveAssign 0 1) = none ∧ step bump w (.pushBack 0 v) = none := by
  have hv : Valid (fun _ => none) [Op.create 0 [3, 1, 2], .moveNew 1 0] := by
    refine ⟨rfl, ?_⟩
    rintro _ ⟨M, _, hM, rfl⟩
    exact ⟨by simp [Pre], fun _ _ => trivial⟩
  obtain ⟨w, S, e, f, I⟩ := run_ok bump_allocator _ inv_empty hv
  obtain ⟨S1, ⟨M, hN, hM, rfl⟩, S2, hS2, hS3⟩ := f
  have hS3' : S = S2 := hS3
  subst hS3'
  have hs : (w.obj 0).size = 0 := by
    obtain ⟨w1, e1, e2⟩ := Option.bind_eq_some_iff.mp (show (step bump World.empty (Op.create 0 [3, 1, 2])).bind _ = some w from e)
    obtain ⟨w2, e3, e4⟩ := Option.bind_eq_some_iff.mp (show (step bump w1 (Op.moveNew 1 0)).bind _ = some w from e2)
    have e5 : w2 = w := Option.some.inj e4
    rw [← e5, ← Option.some.inj (show some _ = some w2 from e3)]
    simp [moveInit]
  have hS : S = update (update (update (fun _ => none) 0 (some M)) 1 (some M)) 0 none := by
    have : S = _ := hS2
    simpa using this
  have hM' : M ≠ [] := by rintro rfl; simp at hM
  obtain ⟨_, d1, _, d2, _⟩ := c81_defect_moved_from bump_allocator ⟨_, hv, e, I⟩ (i := 0) (j := 1) (by rw [hS]; simp) hs (M := M) (by rw [hS]; simp) hM' v
  exact ⟨w, e, d2, d1⟩

end Verif.DList
