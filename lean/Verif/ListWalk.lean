import Verif.ListErase
import Mathlib.Data.List.Destutter
import Mathlib.Data.List.Chain

/-!
# Reading, filtering, assigning, reversing and comparing `mystl::list`s (used by C81)
-/

namespace Verif.DList

variable {α : Type}

theorem Rep.start_ne' {h : Heap α} {o : Lst} {A M B : List (Ptr × α)} (r : Rep h o (A ++ M ++ B)) (hM : M ≠ []) : start o (M ++ B) ≠ start o B := by
  have nd := r.nodup
  obtain ⟨e, M', rfl⟩ := List.exists_cons_of_ne_nil hM
  cases B with
  | nil => simp [nodes, ids] at nd; simp [start]; exact fun hh => nd.1.2.1 hh.symm
  | cons b B =>
    simp only [nodes, ids, List.map_append, List.map_cons, List.append_assoc, List.cons_append, List.nodup_cons, List.nodup_append, List.mem_append, List.mem_cons] at nd
    simp [start]
    intro hh
    exact nd.2.2.1.1 (Or.inr (Or.inl hh))

theorem advance_ok {h : Heap α} {o : Lst} : ∀ (k : Nat) {A B : List (Ptr × α)}, Rep h o (A ++ B) → k ≤ B.length → advance h k (start o B) = some (start o (B.drop k))
  | 0, _, _, _, _ => rfl
  | k + 1, A, [], _, hk => by simp at hk
  | k + 1, A, e :: B, r, hk => by
    unfold advance
    show (nxt h e.1).bind _ = _
    rw [r.next]
    exact advance_ok k (A := A ++ [e]) (B := B) (by simpa using r) (by simp at hk; omega)

theorem readFrom_ok {h : Heap α} {o : Lst} : ∀ (fuel : Nat) {A B : List (Ptr × α)}, Rep h o (A ++ B) → B.length < fuel → readFrom o.node h fuel (start o B) = some (B.map Prod.snd)
  | 0, _, _, _, hk => by omega
  | fuel + 1, A, [], _, _ => by unfold readFrom; rw [if_neg (by simp [start])]; rfl
  | fuel + 1, A, e :: B, r, hk => by
    unfold readFrom
    rw [if_pos (by exact r.start_ne)]
    show (value h e.1).bind _ = _
    rw [r.val]; show (nxt h e.1).bind _ = _
    rw [r.next]; show (readFrom o.node h fuel (start o B)).bind _ = _
    rw [readFrom_ok fuel (A := A ++ [e]) (B := B) (by simpa using r) (by simp at hk; omega)]
    rfl

theorem contents_ok {h : Heap α} {o : Lst} {L : List (Ptr × α)} (r : Rep h o L) {fuel : Nat} (hf : L.length < fuel) : contents fuel o h = some (L.map Prod.snd) := by
  unfold contents
  rw [r.begin]
  exact readFrom_ok fuel (A := []) r hf

theorem isEmpty_ok {h : Heap α} {o : Lst} {L : List (Ptr × α)} (r : Rep h o L) : isEmpty o h = some (decide (L = [])) := by
  unfold isEmpty
  rw [r.begin]
  have : Rep h o ([] ++ L) := r
  show some (decide (start o L = o.node)) = _
  simp only [this.start_iff]

theorem front_ok {h : Heap α} {o : Lst} {L : List (Ptr × α)} (r : Rep h o L) : front o h = (L.map Prod.snd).head? := by
  unfold front
  rw [r.begin]
  show value h (start o L) = _
  cases L with
  | nil => exact value_none r.head
  | cons e L => have : Rep h o ([] ++ e :: L) := r; exact this.val

theorem back_ok {h : Heap α} {o : Lst} {L : List (Ptr × α)} (r : Rep h o L) : back o h = (L.map Prod.snd).getLast? := by
  unfold back
  rw [r.last]
  show value h (finish o L) = _
  rcases List.eq_nil_or_concat L with rfl | ⟨A, e, rfl⟩
  · exact value_none r.head
  · rw [List.concat_eq_append] at r ⊢
    rw [finish_append, r.val]
    simp

theorem distance_ok {h : Heap α} {o : Lst} : ∀ (fuel : Nat) {A M B : List (Ptr × α)}, Rep h o (A ++ M ++ B) → M.length < fuel → distance (start o B) h fuel (start o (M ++ B)) = some M.length
  | 0, _, _, _, _, hk => by omega
  | fuel + 1, A, [], B, _, _ => by unfold distance; rw [if_neg (by simp)]; rfl
  | fuel + 1, A, e :: M, B, r, hk => by
    unfold distance
    rw [if_pos (r.start_ne' (by simp))]
    show (nxt h e.1).bind _ = _
    have r1 : Rep h o (A ++ e :: (M ++ B)) := by simpa using r
    rw [r1.next]; show (distance (start o B) h fuel (start o (M ++ B))).bind _ = _
    rw [distance_ok fuel (A := A ++ [e]) (M := M) (B := B) (by simpa using r) (by simp at hk; omega)]
    rfl

theorem resizeLoop_ok {h : Heap α} {o : Lst} (n : Nat) : ∀ (fuel : Nat) {A B : List (Ptr × α)}, Rep h o (A ++ B) → B.length < fuel → A.length ≤ n →
    resizeLoop o.node n h fuel (start o B) A.length = some (start o ((A ++ B).drop n), min n (A ++ B).length)
  | 0, _, _, _, hk, _ => by omega
  | fuel + 1, A, [], r, _, ha => by
    unfold resizeLoop
    rw [if_neg (by simp [start])]
    have : (A ++ []).drop n = [] := by simp; exact ha
    rw [this]; simp [start]; omega
  | fuel + 1, A, e :: B, r, hk, ha => by
    unfold resizeLoop
    by_cases hl : A.length < n
    · rw [if_pos ⟨by exact r.start_ne, hl⟩]
      show (nxt h e.1).bind _ = _
      rw [r.next]
      have := resizeLoop_ok n fuel (A := A ++ [e]) (B := B) (by simpa using r) (by simp at hk; omega) (by simp; omega)
      simpa using this
    · rw [if_neg (by simp [hl])]
      have e1 : n = A.length := by omega
      subst e1
      simp

theorem resize_ok {fresh : Heap α → Ptr} (hfr : Allocator fresh) {h : Heap α} {o : Lst} {L : List (Ptr × α)} (r : Rep h o L) (hb : Bounded h) (n : Nat) (v : α) {fuel : Nat} (hf : L.length < fuel) :
    ∃ (M : List (Ptr × α)) (h' : Heap α), resize fresh fuel o n v h = some (⟨o.node, n⟩, h') ∧ M.map Prod.snd = List.replicate (n - L.length) v ∧ (∀ e ∈ M, h e.1 = none)
      ∧ Rep h' ⟨o.node, n⟩ (L.take n ++ M) ∧ Upd h h' (nodes o L) (nodes o (L.take n ++ M)) := by
  have lp := resizeLoop_ok n fuel (A := []) (B := L) r hf (by simp)
  rw [List.nil_append] at lp
  by_cases hn : n ≤ L.length
  · have rr : Rep h o (L.take n ++ L.drop n ++ []) := by simpa using r
    obtain ⟨h', e', r', u'⟩ := eraseRange_ok rr (fuel := fuel) (by simp; omega)
    have hlen : (L.take n ++ []).length = n := by simp; omega
    rw [hlen] at e' r'
    refine ⟨[], h', ?_, by simp; omega, by simp, r', by simpa using u'⟩
    unfold resize
    rw [r.begin]
    show (resizeLoop o.node n h fuel (start o L) 0).bind _ = _
    rw [show resizeLoop o.node n h fuel (start o L) 0 = _ from lp]
    show (if min n L.length = n then eraseRange fuel o (start o (L.drop n)) o.node h else _) = _
    rw [if_pos (by omega)]
    simpa [start] using e'
  · have rr : Rep h o (L ++ []) := by simpa using r
    obtain ⟨M, h', e', m', n', r', u'⟩ := insertRange_ok hfr rr hb (List.replicate (n - min n L.length) v) (start_head o [])
    have e1 : n - min n L.length = n - L.length := by omega
    have e2 : o.size + (List.replicate (n - min n L.length) v).length = n := by rw [r.size]; simp; omega
    rw [e2] at e' r'
    have e3 : L.take n = L := List.take_of_length_le (by omega)
    refine ⟨M, h', ?_, by rw [m', e1], n', by rw [e3]; simpa using r', by rw [e3]; simpa using u'⟩
    unfold resize
    rw [r.begin]
    show (resizeLoop o.node n h fuel (start o L) 0).bind _ = _
    rw [show resizeLoop o.node n h fuel (start o L) 0 = _ from lp]
    show (if min n L.length = n then _ else ((insertRange fresh o o.node (List.replicate (n - min n L.length) v) h).bind _)) = _
    rw [if_neg (by omega)]
    rw [show insertRange fresh o o.node (List.replicate (n - min n L.length) v) h = _ from e']
    rfl

/-! ### Assignment -/

/-- the values `vs` written over the beginning of `B` -/
def overlay : List (Ptr × α) → List α → List (Ptr × α)
  | [], _ => []
  | e :: B, [] => e :: B
  | e :: B, v :: vs => (e.1, v) :: overlay B vs

theorem ids_overlay : ∀ (B : List (Ptr × α)) (vs : List α), ids (overlay B vs) = ids B
  | [], _ => rfl
  | _ :: _, [] => rfl
  | e :: B, v :: vs => by simp only [overlay, ids, List.map_cons]; rw [show (overlay B vs).map Prod.fst = B.map Prod.fst from ids_overlay B vs]

theorem vals_overlay : ∀ (B : List (Ptr × α)) (vs : List α), ((overlay B vs).take vs.length).map Prod.snd = vs.take B.length
  | [], _ => by simp [overlay]
  | e :: B, [] => by simp
  | e :: B, v :: vs => by simp [overlay, vals_overlay B vs]

theorem length_overlay (B : List (Ptr × α)) (vs : List α) : (overlay B vs).length = B.length := by
  have := congrArg List.length (ids_overlay B vs)
  simpa [ids] using this

theorem upd_ids {h h' : Heap α} {o : Lst} {L L' : List (Ptr × α)} (e : ids L' = ids L) (hs : ∀ q, q ∉ nodes o L → h' q = h q) : Upd h h' (nodes o L) (nodes o L') := by
  refine ⟨fun q h1 _ => hs q h1, fun q h1 h2 => absurd ?_ h2, fun q h1 h2 => absurd ?_ h2⟩ <;> simpa [nodes, e] using h1

theorem nodes_ids (o : Lst) {L L' : List (Ptr × α)} (e : ids L' = ids L) : nodes o L' = nodes o L := by simp [nodes, e]

theorem assignLoop_ok {o : Lst} : ∀ (vs : List α) {h : Heap α} {A B : List (Ptr × α)}, Rep h o (A ++ B) →
    ∃ h', assignLoop o.node vs (start o B) h = some (start o ((overlay B vs).drop vs.length), vs.drop B.length, h') ∧ Rep h' o (A ++ overlay B vs) ∧ ∀ q, q ∉ nodes o (A ++ B) → h' q = h q
  | [], h, A, B, r => ⟨h, by unfold assignLoop; cases B <;> simp [overlay], by cases B <;> simpa [overlay] using r, fun _ _ => rfl⟩
  | v :: vs, h, A, [], r => ⟨h, by unfold assignLoop; rw [if_neg (by simp [start])]; simp [overlay], by simpa [overlay] using r, fun _ _ => rfl⟩
  | v :: vs, h, A, e :: B, r => by
    obtain ⟨h1, e1, p1, n1, v1⟩ := setVal_ok v (r.vals e (by simp))
    have r1 : Rep h1 o ((A ++ [(e.1, v)]) ++ B) := by
      have nd := r.nodup
      simp only [nodes, ids, List.map_append, List.map_cons, List.nodup_cons, List.nodup_append, List.mem_append, List.mem_cons, List.mem_map] at nd
      refine ⟨?_, fun x hx => ?_, ?_, ?_⟩
      · have := r.ring.frame (h' := h1) (fun q _ => n1 q) (fun q _ => p1 q)
        simpa [ids] using this
      · rw [v1]
        simp only [List.mem_append, List.mem_singleton] at hx
        rcases hx with (hx | rfl) | hx
        · rw [if_neg (fun hh => nd.2.2.2 x.1 ⟨x, hx, rfl⟩ e.1 (Or.inl rfl) hh)]; exact r.vals x (by simp [hx])
        · rw [if_pos rfl]
        · rw [if_neg (fun hh => nd.2.2.1.1 ⟨x, hx, hh⟩)]; exact r.vals x (by simp [hx])
      · rw [v1, if_neg (fun hh => r.start_ne hh.symm)]; exact r.head
      · rw [r.size]; simp
    obtain ⟨h', e', r', s'⟩ := assignLoop_ok vs r1
    refine ⟨h', ?_, by simpa [overlay] using r', fun q hq => ?_⟩
    · unfold assignLoop
      rw [if_pos (by exact r.start_ne)]
      show (setVal h e.1 v).bind _ = _
      rw [e1]; show (nxt h1 e.1).bind _ = _
      rw [n1, r.next]; show assignLoop o.node vs (start o B) h1 = _
      rw [e']; simp [overlay]
    · rw [s' q (by simpa [nodes, ids] using hq)]
      have : q ≠ e.1 := by rintro rfl; exact hq (by simp [nodes, ids])
      exact heap_ext (n1 q) (p1 q) (by rw [v1, if_neg this])

theorem assign_ok {fresh : Heap α → Ptr} (hfr : Allocator fresh) {h : Heap α} {o : Lst} {L : List (Ptr × α)} (r : Rep h o L) (hb : Bounded h) (vs : List α) {fuel : Nat} (hf : L.length < fuel) :
    ∃ (L' M : List (Ptr × α)) (h' : Heap α), assign fresh fuel o vs h = some (⟨o.node, vs.length⟩, h') ∧ L'.map Prod.snd = vs ∧ ids L' = (ids L).take vs.length ++ ids M ∧ (∀ e ∈ M, h e.1 = none)
      ∧ Rep h' ⟨o.node, vs.length⟩ L' ∧ Upd h h' (nodes o L) (nodes o L') := by
  obtain ⟨h1, e1, r1, s1⟩ := assignLoop_ok vs (A := []) (B := L) r
  rw [List.nil_append] at r1 s1
  have u1 : Upd h h1 (nodes o L) (nodes o (overlay L vs)) := upd_ids (ids_overlay L vs) s1
  by_cases hn : vs.length ≤ L.length
  · have rr : Rep h1 o ((overlay L vs).take vs.length ++ (overlay L vs).drop vs.length ++ []) := by simpa using r1
    obtain ⟨h', e', r', u'⟩ := eraseRange_ok rr (fuel := fuel) (by rw [List.length_drop, length_overlay]; omega)
    have hlen : ((overlay L vs).take vs.length ++ []).length = vs.length := by simp [length_overlay]; omega
    rw [hlen] at e' r'
    rw [List.append_nil] at r'
    refine ⟨_, [], h', ?_, by rw [vals_overlay]; exact List.take_of_length_le hn, by rw [← ids_overlay L vs]; simp [ids, List.map_take], by simp, r', u1.trans (by simpa using u')⟩
    unfold assign
    rw [r.begin]
    show (assignLoop o.node vs (start o L) h).bind _ = _
    rw [e1, List.drop_eq_nil_of_le hn]
    simpa [start] using e'
  · have rr : Rep h1 o (overlay L vs ++ []) := by simpa using r1
    obtain ⟨M, h', e', m', n', r', u'⟩ := insertRange_ok hfr rr (u1.bounded hb) (vs.drop L.length) (start_head o [])
    have e2 : o.size + (vs.drop L.length).length = vs.length := by rw [r.size]; simp; omega
    rw [e2] at e' r'
    rw [List.append_nil] at r' u'
    have hov : (overlay L vs).take vs.length = overlay L vs := List.take_of_length_le (by rw [length_overlay]; omega)
    have hids : (ids L).take vs.length = ids L := List.take_of_length_le (by simp [ids]; omega)
    refine ⟨overlay L vs ++ M, M, h', ?_, ?_, ?_, ?_, by simpa using r', ?_⟩
    · unfold assign
      rw [r.begin]
      show (assignLoop o.node vs (start o L) h).bind _ = _
      rw [e1]
      obtain ⟨v, w, hvw⟩ := List.exists_cons_of_ne_nil (l := vs.drop L.length) (by simp; omega)
      rw [hvw] at e' ⊢
      show ((insertRange fresh o o.node (v :: w) h1).bind _) = _
      rw [show insertRange fresh o o.node (v :: w) h1 = _ from e']
      rfl
    · rw [List.map_append, m', ← hov, vals_overlay, List.take_append_drop]
    · rw [hids]; simp only [ids, List.map_append]; rw [show (overlay L vs).map Prod.fst = L.map Prod.fst from ids_overlay L vs]
    · intro e he
      have hd := n' e he
      by_cases hm : e.1 ∈ nodes o L
      · exact absurd hd (r1.alive (by rw [nodes_ids o (ids_overlay L vs)]; exact hm))
      · rw [← s1 _ hm]; exact hd
    · exact u1.trans (by simpa using u')

/-! ### `remove_if`, `remove`, `unique` -/

theorem removeLoop_ok (p : α → Bool) : ∀ (fuel : Nat) {A B : List (Ptr × α)} {o : Lst} {h : Heap α}, Rep h o (A ++ B) → B.length < fuel →
    ∃ h', removeLoop p o.node fuel (start o B) o h = some (⟨o.node, (A ++ B.filter (fun e => !p e.2)).length⟩, h') ∧ Rep h' ⟨o.node, (A ++ B.filter (fun e => !p e.2)).length⟩ (A ++ B.filter (fun e => !p e.2))
      ∧ Upd h h' (nodes o (A ++ B)) (nodes o (A ++ B.filter (fun e => !p e.2)))
  | 0, _, _, _, _, _, hk => by omega
  | fuel + 1, A, [], o, h, r, _ => by
    refine ⟨h, ?_, r.obj rfl rfl, Upd.refl h _⟩
    unfold removeLoop
    rw [if_neg (by simp [start])]
    have := r.size
    show some (o, h) = some (⟨o.node, (A ++ []).length⟩, h)
    rw [← this]
  | fuel + 1, A, e :: B, o, h, r, hk => by
    by_cases hp : p e.2 = true
    · obtain ⟨h1, e1, r1, u1⟩ := erase_ok r
      obtain ⟨h', e', r', u'⟩ := removeLoop_ok p fuel (A := A) (B := B) (o := ⟨o.node, (A ++ B).length⟩) r1 (by simp at hk; omega)
      have hfl : (e :: B).filter (fun e => !p e.2) = B.filter (fun e => !p e.2) := by simp [hp]
      rw [hfl]
      refine ⟨h', ?_, r', u1.trans u'⟩
      unfold removeLoop
      rw [if_pos (by exact r.start_ne)]
      show (nxt h e.1).bind _ = _
      rw [r.next]; show (value h e.1).bind _ = _
      rw [r.val]
      show (if p e.2 then ((erase o e.1 h).bind _) else _) = _
      rw [if_pos hp, e1]
      have : start (⟨o.node, (A ++ B).length⟩ : Lst) B = start o B := by cases B <;> rfl
      rw [this] at e'
      exact e'
    · obtain ⟨h', e', r', u'⟩ := removeLoop_ok p fuel (A := A ++ [e]) (B := B) (o := o) (h := h) (by simpa using r) (by simp at hk; omega)
      have hfl : A ++ [e] ++ B.filter (fun e => !p e.2) = A ++ (e :: B).filter (fun e => !p e.2) := by simp [hp]
      rw [hfl] at e' r' u'
      refine ⟨h', ?_, r', by simpa using u'⟩
      unfold removeLoop
      rw [if_pos (by exact r.start_ne)]
      show (nxt h e.1).bind _ = _
      rw [r.next]; show (value h e.1).bind _ = _
      rw [r.val]
      show (if p e.2 then ((erase o e.1 h).bind _) else _) = _
      rw [if_neg hp]
      exact e'

theorem removeIf_ok (p : α → Bool) {L : List (Ptr × α)} {o : Lst} {h : Heap α} (r : Rep h o L) {fuel : Nat} (hf : L.length < fuel) :
    ∃ h', removeIf p fuel o h = some (⟨o.node, (L.filter (fun e => !p e.2)).length⟩, h') ∧ Rep h' ⟨o.node, (L.filter (fun e => !p e.2)).length⟩ (L.filter (fun e => !p e.2))
      ∧ Upd h h' (nodes o L) (nodes o (L.filter (fun e => !p e.2))) := by
  have := removeLoop_ok p fuel (A := []) (B := L) r hf
  unfold removeIf
  rw [r.begin]
  exact this

theorem uniqueLoop_ok (p : α → α → Bool) : ∀ (fuel : Nat) {A B : List (Ptr × α)} {a : Ptr × α} {o : Lst} {h : Heap α}, Rep h o (A ++ a :: B) → B.length < fuel →
    ∃ h', uniqueLoop p o.node fuel a.1 (start o B) o h = some (⟨o.node, (A ++ B.destutter' (fun x y => p x.2 y.2 = false) a).length⟩, h')
      ∧ Rep h' ⟨o.node, (A ++ B.destutter' (fun x y => p x.2 y.2 = false) a).length⟩ (A ++ B.destutter' (fun x y => p x.2 y.2 = false) a)
      ∧ Upd h h' (nodes o (A ++ a :: B)) (nodes o (A ++ B.destutter' (fun x y => p x.2 y.2 = false) a))
  | 0, _, _, _, _, _, _, hk => by omega
  | fuel + 1, A, [], a, o, h, r, _ => by
    rw [List.destutter'_nil]
    refine ⟨h, ?_, r.obj rfl rfl, Upd.refl h _⟩
    unfold uniqueLoop
    rw [if_neg (by simp [start]), ← r.size]
  | fuel + 1, A, b :: B, a, o, h, r, hk => by
    have r2 : Rep h o ((A ++ [a]) ++ b :: B) := by simpa using r
    by_cases hp : p a.2 b.2 = true
    · obtain ⟨h1, e1, r1, u1⟩ := erase_ok r2
      have r3 : Rep h1 ⟨o.node, (A ++ [a] ++ B).length⟩ (A ++ a :: B) := by simpa using r1
      obtain ⟨h', e', r', u'⟩ := uniqueLoop_ok p fuel r3 (by simp at hk; omega)
      rw [List.destutter'_cons_neg _ (by simp [hp])]
      refine ⟨h', ?_, r', (u1.of_eq (M := nodes o (A ++ a :: b :: B)) (M' := nodes o (A ++ a :: B)) (by simp) (by simp)).trans u'⟩
      unfold uniqueLoop
      rw [if_pos (by exact r2.start_ne)]
      show (value h a.1).bind _ = _
      rw [r.val]; show (value h b.1).bind _ = _
      rw [r2.val]
      show (if p a.2 b.2 then ((erase o b.1 h).bind _) else _) = _
      rw [if_pos hp, e1]
      show (nxt h1 a.1).bind _ = _
      rw [r3.next]
      exact e'
    · obtain ⟨h', e', r', u'⟩ := uniqueLoop_ok p fuel r2 (by simp at hk; omega)
      rw [List.destutter'_cons_pos _ (by simpa using hp)]
      have hfl : ∀ X : List (Ptr × α), A ++ [a] ++ X = A ++ a :: X := by simp
      rw [hfl] at e' r' u'
      refine ⟨h', ?_, r', by simpa using u'⟩
      unfold uniqueLoop
      rw [if_pos (by exact r2.start_ne)]
      show (value h a.1).bind _ = _
      rw [r.val]; show (value h b.1).bind _ = _
      rw [r2.val]
      show (if p a.2 b.2 then _ else ((nxt h b.1).bind _)) = _
      rw [if_neg hp, r2.next]
      exact e'

theorem unique_ok (p : α → α → Bool) {L : List (Ptr × α)} {o : Lst} {h : Heap α} (r : Rep h o L) {fuel : Nat} (hf : L.length < fuel) :
    ∃ h', unique p fuel o h = some (⟨o.node, (L.destutter (fun x y => p x.2 y.2 = false)).length⟩, h')
      ∧ Rep h' ⟨o.node, (L.destutter (fun x y => p x.2 y.2 = false)).length⟩ (L.destutter (fun x y => p x.2 y.2 = false))
      ∧ Upd h h' (nodes o L) (nodes o (L.destutter (fun x y => p x.2 y.2 = false))) := by
  cases L with
  | nil =>
    refine ⟨h, ?_, r.obj rfl rfl, Upd.refl h _⟩
    unfold unique
    rw [r.begin]; show (nxt h o.node).bind _ = _
    rw [r.begin]
    cases fuel with
    | zero => omega
    | succ n =>
      show uniqueLoop p o.node (n + 1) o.node o.node o h = _
      unfold uniqueLoop
      rw [if_neg (by simp)]
      have := r.size
      simp at this
      simp [← this]
  | cons a L =>
    rw [List.destutter_cons']
    have r1 : Rep h o ([] ++ a :: L) := r
    obtain ⟨h', e', r', u'⟩ := uniqueLoop_ok p fuel r1 (by simp at hf; omega)
    refine ⟨h', ?_, r', u'⟩
    unfold unique
    rw [r.begin]; show (nxt h a.1).bind _ = _
    rw [r1.next]
    exact e'

/-! ### `reverse` -/

/-- the nodes `M` are linked forwards -/
theorem reverseLoop_ok (y : Ptr) : ∀ (M : List (Ptr × α)) (fuel : Nat) (h : Heap α), Fwd h y M → (∀ q ∈ ids M, ∃ z, prv h q = some z) → (ids M).Nodup → y ∉ ids M → M.length < fuel →
    ∃ h', reverseLoop y fuel ((ids M ++ [y]).head (by simp)) h = some h' ∧ (∀ q ∈ ids M, nxt h' q = prv h q ∧ prv h' q = nxt h q) ∧ (∀ q, vl h' q = vl h q) ∧ ∀ q, q ∉ ids M → h' q = h q
  | [], fuel + 1, h, _, _, _, _, _ => ⟨h, by unfold reverseLoop; rw [if_neg (by simp [ids])], by simp [ids], fun _ => rfl, fun _ _ => rfl⟩
  | e :: M, fuel + 1, h, ⟨a, b, c⟩, hp, hn, hy, hf => by
    simp only [ids, List.map_cons, List.nodup_cons, List.mem_cons, not_or] at hn hy
    obtain ⟨z, hz⟩ := hp e.1 (by simp [ids])
    obtain ⟨h1, e1, p1, n1, v1⟩ := setPrev_ok (h := h) (p := e.1) ((ids M ++ [y]).head (by simp)) (by rw [a]; simp)
    obtain ⟨h2, e2, n2, p2, v2⟩ := setNext_ok (h := h1) (p := e.1) z (by rw [v1, a]; simp)
    have oth : ∀ q, q ≠ e.1 → h2 q = h q := fun q hq => heap_ext (by rw [n2, if_neg hq, n1]) (by rw [p2, p1, if_neg hq]) (by rw [v2, v1])
    have oM : ∀ q ∈ ids M, h2 q = h q := fun q hq => oth q (by rintro rfl; exact hn.1 hq)
    obtain ⟨h', e', s', v', o'⟩ := reverseLoop_ok y M fuel h2 (c.frame oM) (fun q hq => by unfold prv; rw [oM q hq]; exact hp q (by simp [ids] at hq ⊢; tauto)) hn.2 hy.2 (by simp at hf; omega)
    refine ⟨h', ?_, ?_, fun q => by rw [v', v2, v1], ?_⟩
    · unfold reverseLoop
      rw [if_pos (by simp [ids]; exact fun h => hy.1 h.symm)]
      show (prv h e.1).bind _ = _
      rw [hz]; show (nxt h e.1).bind _ = _
      rw [b]; show (setPrev h e.1 _).bind _ = _
      rw [e1]; show (setNext h1 e.1 z).bind _ = _
      rw [e2]; show (prv h2 e.1).bind _ = _
      rw [p2, p1, if_pos rfl]
      exact e'
    · intro q hq
      by_cases hm : q ∈ ids M
      · obtain ⟨s1, s2⟩ := s' q hm
        rw [s1, s2]; unfold prv nxt; rw [oM q hm]; exact ⟨rfl, rfl⟩
      · have he : q = e.1 := by simp [ids] at hq hm; tauto
        have := o' q hm
        have k1 : nxt h' q = nxt h2 q := by unfold nxt; rw [this]
        have k2 : prv h' q = prv h2 q := by unfold prv; rw [this]
        rw [k1, k2, n2 q, if_pos he, p2 q, p1 q, if_pos he, he, hz, b]
        exact ⟨rfl, rfl⟩
    · intro q hq
      simp only [ids, List.map_cons, List.mem_cons, not_or] at hq
      rw [o' q hq.2, oth q hq.1]

theorem reverse_ok {L : List (Ptr × α)} {o : Lst} {h : Heap α} (r : Rep h o L) {fuel : Nat} (hf : L.length < fuel) :
    ∃ h', reverse fuel o h = some h' ∧ Rep h' o L.reverse ∧ Upd h h' (nodes o L) (nodes o L.reverse) := by
  by_cases hs : o.size ≤ 1
  · have : L.reverse = L := by
      rw [r.size] at hs
      match L, hs with
      | [], _ => rfl
      | [_], _ => rfl
    rw [this]
    exact ⟨h, by unfold reverse; rw [if_pos hs], r, Upd.refl h _⟩
  · have r0 : Rep h o ([] ++ L ++ []) := by simpa using r
    have nd := r.nodup
    simp only [nodes, List.nodup_cons] at nd
    have prvs : ∀ q ∈ ids L, ∃ z, prv h q = some z := by
      intro q hq
      obtain ⟨e, he, rfl⟩ := List.mem_map.mp hq
      have := r.vals e he
      unfold vl at this
      unfold prv
      cases hc : h e.1 with
      | none => rw [hc] at this; simp at this
      | some c => exact ⟨c.prev, rfl⟩
    obtain ⟨h1, e1, s1, v1, o1⟩ := reverseLoop_ok o.node L fuel h r0.fwd prvs nd.2 nd.1 hf
    have st' : start o L = (ids L ++ [o.node]).head (by simp) := by cases L <;> rfl
    have hn1 : h1 o.node = h o.node := o1 _ nd.1
    have al : vl h1 o.node ≠ none := by rw [v1, r.head]; simp
    obtain ⟨h2, e2, p2, n2, v2⟩ := setPrev_ok (h := h1) (p := o.node) (start o L) al
    obtain ⟨h3, e3, n3, p3, v3⟩ := setNext_ok (h := h2) (p := o.node) (finish o L) (by rw [v2]; exact al)
    have swp : ∀ q ∈ nodes o L, nxt h3 q = prv h q ∧ prv h3 q = nxt h q := by
      intro q hq
      by_cases hm : q ∈ ids L
      · have : q ≠ o.node := by rintro rfl; exact nd.1 hm
        rw [n3, if_neg this, n2, p3, p2, if_neg this]
        exact s1 q hm
      · have : q = o.node := by simpa [nodes, hm] using hq
        rw [n3, p3, p2, if_pos this, if_pos this, this, r.begin, r.last]; exact ⟨rfl, rfl⟩
    have vv : ∀ q, vl h3 q = vl h q := fun q => by rw [v3, v2, v1]
    refine ⟨h3, ?_, ⟨⟨?_, ?_, ?_⟩, ?_, ?_, ?_⟩, ?_⟩
    · unfold reverse
      rw [if_neg hs, r.begin]; show (reverseLoop o.node fuel (start o L) h).bind _ = _
      rw [st', e1]; show (prv h1 o.node).bind _ = _
      have a1 : prv h1 o.node = some (finish o L) := by rw [← r.last]; unfold prv; rw [hn1]
      have a2 : nxt h1 o.node = some (start o L) := by rw [← r.begin]; unfold nxt; rw [hn1]
      rw [a1]; show (nxt h1 o.node).bind _ = _
      rw [a2]; show (setPrev h1 o.node (start o L)).bind _ = _
      rw [e2]; exact e3
    · have hp := r.ring.path
      have : o.node :: ids L.reverse ++ [o.node] = (o.node :: ids L ++ [o.node]).reverse := by simp [ids]
      rw [this, Path, List.isChain_reverse]
      have h2 : ∀ q ∈ o.node :: ids L ++ [o.node], q ∈ nodes o L := by intro q hq; simp [nodes] at hq ⊢; tauto
      revert h2 hp
      generalize o.node :: ids L ++ [o.node] = l
      intro hp h2
      induction l with
      | nil => exact List.IsChain.nil
      | cons x l ih =>
        cases l with
        | nil => exact List.IsChain.singleton _
        | cons y l =>
          rw [Path, List.isChain_cons_cons] at hp
          rw [List.isChain_cons_cons]
          refine ⟨⟨?_, ?_⟩, ih hp.2 (fun q hq => h2 q (List.mem_cons_of_mem _ hq))⟩
          · rw [(swp y (h2 y (by simp))).1]; exact hp.1.2
          · rw [(swp x (h2 x (by simp))).2]; exact hp.1.1
    · have := r.nodup
      simp [nodes, ids] at this ⊢
      exact this
    · have := r.nonzero
      simpa [nodes, ids] using this
    · intro e he; rw [vv]; exact r.vals e (by simpa using he)
    · rw [vv]; exact r.head
    · rw [r.size]; simp
    · have hs' : ∀ q, q ∉ nodes o L → h3 q = h q := by
        intro q hq
        simp only [nodes, List.mem_cons, not_or] at hq
        rw [heap_ext (h := h1) (h' := h3) (by rw [n3, if_neg hq.1, n2]) (by rw [p3, p2, if_neg hq.1]) (by rw [v3, v2]), o1 q hq.2]
      exact (upd_ids (L' := L) rfl hs').congr (fun _ => Iff.rfl) (fun q => by simp [nodes, ids])

/-! ### `operator==` -/

theorem equalLoop_ok (eq : α → α → Bool) {h : Heap α} {o x : Lst} : ∀ (fuel : Nat) {A B A2 B2 : List (Ptr × α)}, Rep h o (A ++ B) → Rep h x (A2 ++ B2) → B.length < fuel →
    ∃ b, equalLoop eq h o.node x.node fuel (start o B) (start x B2) = some b ∧ (b = true ↔ List.Forall₂ (fun u v => eq u v = true) (B.map Prod.snd) (B2.map Prod.snd))
  | 0, _, _, _, _, _, _, hk => by omega
  | fuel + 1, A, [], A2, B2, r, r2, _ => by
    unfold equalLoop
    rw [if_neg (by simp [start])]
    refine ⟨_, rfl, ?_⟩
    have := r2.start_iff
    cases B2 with
    | nil => simp [start]
    | cons e B2 =>
      have h1 : ¬ start x (e :: B2) = x.node := by rw [this]; simp
      simp [h1]
  | fuel + 1, A, a :: B, A2, [], r, r2, _ => by
    unfold equalLoop
    rw [if_neg (by simp [start])]
    refine ⟨_, rfl, ?_⟩
    have h1 : ¬ start o (a :: B) = o.node := r.start_ne
    simp [h1]
  | fuel + 1, A, a :: B, A2, c :: B2, r, r2, hk => by
    unfold equalLoop
    rw [if_pos ⟨by exact r.start_ne, by exact r2.start_ne⟩]
    show ∃ b, (value h a.1).bind _ = _ ∧ _
    rw [r.val]; show ∃ b, (value h c.1).bind _ = _ ∧ _
    rw [r2.val]
    by_cases he : eq a.2 c.2 = true
    · obtain ⟨b, e', i'⟩ := equalLoop_ok eq fuel (A := A ++ [a]) (B := B) (A2 := A2 ++ [c]) (B2 := B2) (by simpa using r) (by simpa using r2) (by simp at hk; omega)
      refine ⟨b, ?_, by simp [he]; simpa using i'⟩
      show (if eq a.2 c.2 then ((nxt h a.1).bind _) else _) = _
      rw [if_pos he, r.next]
      show (nxt h c.1).bind _ = _
      rw [r2.next]; exact e'
    · refine ⟨false, ?_, by simp [he]⟩
      show (if eq a.2 c.2 then ((nxt h a.1).bind _) else _) = _
      rw [if_neg he]

theorem equal_ok (eq : α → α → Bool) {h : Heap α} {o x : Lst} {L M : List (Ptr × α)} (r : Rep h o L) (r2 : Rep h x M) {fuel : Nat} (hf : L.length < fuel) :
    ∃ b, equal eq fuel o x h = some b ∧ (b = true ↔ List.Forall₂ (fun u v => eq u v = true) (L.map Prod.snd) (M.map Prod.snd)) := by
  have := equalLoop_ok eq fuel (A := []) (B := L) (A2 := []) (B2 := M) r r2 hf
  unfold equal
  rw [r.begin]; show ∃ b, (nxt h x.node).bind _ = _ ∧ _
  rw [r2.begin]; exact this

end Verif.DList
