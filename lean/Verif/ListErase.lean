import Verif.ListOps

/-!
# Walking along and erasing from `mystl::list` (used by C81)
-/

namespace Verif.DList

variable {α : Type}

/-- the address of the first node of the rest of a list, or the end node -/
def start (o : Lst) : List (Ptr × α) → Ptr
  | [] => o.node
  | b :: _ => b.1

/-- the address of the last node of the beginning of a list, or the end node -/
def finish (o : Lst) (A : List (Ptr × α)) : Ptr := (o.node :: ids A).getLast (by simp)

theorem start_head (o : Lst) (B : List (Ptr × α)) : (ids B ++ [o.node]).head? = some (start o B) := by
  cases B <;> simp [start, ids]

theorem finish_last (o : Lst) (A : List (Ptr × α)) : (o.node :: ids A).getLast? = some (finish o A) := List.getLast?_eq_some_getLast (by simp)

theorem finish_append (o : Lst) (A : List (Ptr × α)) (e : Ptr × α) : finish o (A ++ [e]) = e.1 := by simp [finish, ids]

theorem Rep.gap {h : Heap α} {o : Lst} {A B : List (Ptr × α)} (r : Rep h o (A ++ B)) : nxt h (finish o A) = some (start o B) ∧ prv h (start o B) = some (finish o A) := by
  have := r.ring
  rw [show ids (A ++ B) = ids A ++ ids B by simp [ids]] at this
  exact this.gap (finish_last o A) (start_head o B)

theorem Rep.begin {h : Heap α} {o : Lst} {B : List (Ptr × α)} (r : Rep h o B) : nxt h o.node = some (start o B) := by
  have : Rep h o ([] ++ B) := r
  exact this.gap.1

theorem Rep.last {h : Heap α} {o : Lst} {A : List (Ptr × α)} (r : Rep h o A) : prv h o.node = some (finish o A) := by
  have : Rep h o (A ++ []) := by simpa using r
  exact this.gap.2

theorem Rep.next {h : Heap α} {o : Lst} {A B : List (Ptr × α)} {e : Ptr × α} (r : Rep h o (A ++ e :: B)) : nxt h e.1 = some (start o B) := by
  have : Rep h o ((A ++ [e]) ++ B) := by simpa using r
  have := this.gap.1
  rwa [finish_append] at this

theorem Rep.val {h : Heap α} {o : Lst} {A B : List (Ptr × α)} {e : Ptr × α} (r : Rep h o (A ++ e :: B)) : value h e.1 = some e.2 := value_vl (r.vals e (by simp))

theorem Rep.nodup {h : Heap α} {o : Lst} {L : List (Ptr × α)} (r : Rep h o L) : (nodes o L).Nodup := r.ring.nodup

theorem Rep.start_ne {h : Heap α} {o : Lst} {A B : List (Ptr × α)} {e : Ptr × α} (r : Rep h o (A ++ e :: B)) : e.1 ≠ o.node := by
  have := r.nodup
  simp [nodes, ids] at this
  exact fun h => this.1.2.1 h.symm

theorem Rep.start_iff {h : Heap α} {o : Lst} {A B : List (Ptr × α)} (r : Rep h o (A ++ B)) : start o B = o.node ↔ B = [] := by
  cases B with
  | nil => simp [start]
  | cons e B => simp [start, r.start_ne]

theorem nodes_congr (o o' : Lst) (e : o.node = o'.node) (L : List (Ptr × α)) : nodes o L = nodes o' L := by simp [nodes, e]

theorem Rep.obj {h : Heap α} {o o' : Lst} {L : List (Ptr × α)} (r : Rep h o L) (e : o'.node = o.node) (s : o'.size = L.length) : Rep h o' L := by
  obtain ⟨a, b, c, d⟩ := r
  exact ⟨by rw [e]; exact a, b, by rw [e]; exact c, s⟩

/-- a range taken out of a list, still unchanged in memory -/
theorem rep_unlink {h : Heap α} {o : Lst} {A M B : List (Ptr × α)} (r : Rep h o (A ++ M ++ B)) {f l : Ptr} (hf : (ids M).head? = some f) (hl : (ids M).getLast? = some l) :
    ∃ h', unlinkNodes f l h = some h' ∧ Rep h' ⟨o.node, (A ++ B).length⟩ (A ++ B) ∧ Path h' (ids M) ∧ (∀ q, vl h' q = vl h q) ∧ (∀ q, q ∉ nodes o (A ++ B) → h' q = h q)
      ∧ (∀ q ∈ ids M, q ∉ nodes o (A ++ B)) := by
  obtain ⟨h', e, r', p', v', s'⟩ := ring_unlink (A := ids A) (M := ids M) (B := ids B) (by simpa [ids] using r.ring) hf hl
  refine ⟨h', e, ⟨by simpa [ids] using r', ?_, by rw [v']; exact r.head, rfl⟩, p', v', by simpa [nodes, ids] using s', ?_⟩
  · intro x hx
    rw [v']
    exact r.vals x (by simp at hx ⊢; tauto)
  · have := r.nodup
    intro q hq hm
    simp only [nodes, ids, List.map_append, List.append_assoc, List.nodup_cons, List.nodup_append, List.mem_append, List.mem_cons] at this hm hq
    obtain ⟨n1, n2, ⟨n3, n4, n5⟩, n6⟩ := this
    rcases hm with e | hm | hm
    · exact n1 (Or.inr (Or.inl (e ▸ hq)))
    · exact n6 q hm q (Or.inl hq) rfl
    · exact n5 q hq q hm rfl

theorem upd_remove {h h' : Heap α} {o : Lst} {A M B : List (Ptr × α)} (hd : ∀ q ∈ ids M, h' q = none) (hs : ∀ q, q ∉ nodes o (A ++ M ++ B) → h' q = h q) :
    Upd h h' (nodes o (A ++ M ++ B)) (nodes o (A ++ B)) := by
  refine ⟨fun q h1 _ => hs q h1, fun q h1 h2 => hd q ?_, fun q h1 h2 => absurd ?_ h2⟩
  · simp [nodes, ids] at h1 h2 ⊢; tauto
  · simp [nodes, ids] at h1 ⊢; tauto

theorem destroy_ok {h : Heap α} {p : Ptr} {v : α} (hv : vl h p = some (some v)) : destroyNode h p = some (put h p none) := by
  unfold destroyNode
  rw [value_vl hv]; rfl

theorem put_other {h : Heap α} {p q : Ptr} (c : Option (Cell α)) (hq : q ≠ p) : put h p c q = h q := by simp [put, hq]

theorem decr_ok {o : Lst} {n : Nat} (hs : o.size = n + 1) : decr o = some ⟨o.node, n⟩ := by
  unfold decr
  rw [hs, if_neg (by omega)]; rfl

/-- unlinking one node and destroying it: the common part of `erase`, `pop_front` and `pop_back` -/
theorem erase_core {h : Heap α} {o : Lst} {A B : List (Ptr × α)} {e : Ptr × α} (r : Rep h o (A ++ e :: B)) :
    ∃ h1 h', unlinkNodes e.1 e.1 h = some h1 ∧ destroyNode h1 e.1 = some h' ∧ decr o = some ⟨o.node, (A ++ B).length⟩ ∧ Rep h' ⟨o.node, (A ++ B).length⟩ (A ++ B)
      ∧ Upd h h' (nodes o (A ++ e :: B)) (nodes o (A ++ B)) := by
  have r0 : Rep h o (A ++ [e] ++ B) := by simpa using r
  obtain ⟨h1, e1, r1, p1, v1, s1, d1⟩ := rep_unlink r0 (f := e.1) (l := e.1) rfl rfl
  have en : e.1 ∉ nodes o (A ++ B) := d1 e.1 (by simp [ids])
  refine ⟨h1, put h1 e.1 none, e1, destroy_ok (v := e.2) (by rw [v1]; exact r.vals e (by simp)), decr_ok (by rw [r.size]; simp; omega), r1.frame (fun q hq => ?_), ?_⟩
  · exact put_other _ (fun h => en (h ▸ hq))
  · have := upd_remove (h := h) (h' := put h1 e.1 none) (o := o) (A := A) (M := [e]) (B := B) (by simp [ids, put]) (fun q hq => by
      have : q ≠ e.1 := by rintro rfl; exact hq (by simp [nodes, ids])
      rw [put_other _ this, s1 q (fun hm => hq (by simp [nodes, ids] at hm ⊢; tauto))])
    simpa using this

theorem erase_ok {h : Heap α} {o : Lst} {A B : List (Ptr × α)} {e : Ptr × α} (r : Rep h o (A ++ e :: B)) :
    ∃ h', erase o e.1 h = some (start o B, ⟨o.node, (A ++ B).length⟩, h') ∧ Rep h' ⟨o.node, (A ++ B).length⟩ (A ++ B) ∧ Upd h h' (nodes o (A ++ e :: B)) (nodes o (A ++ B)) := by
  obtain ⟨h1, h', e1, e2, e3, r', u'⟩ := erase_core r
  refine ⟨h', ?_, r', u'⟩
  unfold erase
  rw [r.next]; show (unlinkNodes e.1 e.1 h).bind _ = _
  rw [e1]; show (destroyNode h1 e.1).bind _ = _
  rw [e2]; show (decr o).bind _ = _
  rw [e3]; rfl

theorem popFront_ok {h : Heap α} {o : Lst} {B : List (Ptr × α)} {e : Ptr × α} (r : Rep h o (e :: B)) :
    ∃ h', popFront o h = some (⟨o.node, B.length⟩, h') ∧ Rep h' ⟨o.node, B.length⟩ B ∧ Upd h h' (nodes o (e :: B)) (nodes o B) := by
  have r0 : Rep h o ([] ++ e :: B) := r
  obtain ⟨h1, h', e1, e2, e3, r', u'⟩ := erase_core r0
  refine ⟨h', ?_, r', u'⟩
  unfold popFront
  rw [r.begin]; show (unlinkNodes e.1 e.1 h).bind _ = _
  rw [e1]; show (destroyNode h1 e.1).bind _ = _
  rw [e2]; show (decr o).bind _ = _
  rw [e3]; rfl

theorem popBack_ok {h : Heap α} {o : Lst} {A : List (Ptr × α)} {e : Ptr × α} (r : Rep h o (A ++ [e])) :
    ∃ h', popBack o h = some (⟨o.node, A.length⟩, h') ∧ Rep h' ⟨o.node, A.length⟩ A ∧ Upd h h' (nodes o (A ++ [e])) (nodes o A) := by
  obtain ⟨h1, h', e1, e2, e3, r', u'⟩ := erase_core r
  rw [List.append_nil] at e3 r' u'
  refine ⟨h', ?_, r', u'⟩
  unfold popBack
  rw [r.last, finish_append]; show (unlinkNodes e.1 e.1 h).bind _ = _
  rw [e1]; show (destroyNode h1 e.1).bind _ = _
  rw [e2]; show (decr o).bind _ = _
  rw [e3]; rfl

/-- the nodes `M` are linked forwards, and the last of them to `y` -/
def Fwd (h : Heap α) (y : Ptr) : List (Ptr × α) → Prop
  | [] => True
  | e :: M => vl h e.1 = some (some e.2) ∧ nxt h e.1 = some ((ids M ++ [y]).head (by simp)) ∧ Fwd h y M

theorem Fwd.frame {h h' : Heap α} {y : Ptr} : ∀ {M : List (Ptr × α)}, Fwd h y M → (∀ q ∈ ids M, h' q = h q) → Fwd h' y M
  | [], _, _ => trivial
  | e :: M, ⟨a, b, c⟩, hs => by
    have he := hs e.1 (by simp [ids])
    refine ⟨by unfold vl; rw [he]; exact a, by unfold nxt; rw [he]; exact b, c.frame (fun q hq => hs q (by simp [ids] at hq ⊢; tauto))⟩

theorem start_cons_head (o : Lst) : ∀ (M B : List (Ptr × α)), start o (M ++ B) = (ids M ++ [start o B]).head (by simp)
  | [], B => by simp [ids]
  | e :: M, B => by simp [start, ids]

theorem Rep.fwd {h : Heap α} {o : Lst} : ∀ {M A B : List (Ptr × α)}, Rep h o (A ++ M ++ B) → Fwd h (start o B) M
  | [], _, _, _ => trivial
  | e :: M, A, B, r => by
    have r1 : Rep h o (A ++ e :: (M ++ B)) := by simpa using r
    refine ⟨r.vals e (by simp), ?_, Rep.fwd (A := A ++ [e]) (B := B) (by simpa using r)⟩
    rw [r1.next, start_cons_head]

theorem eraseLoop_ok (y : Ptr) : ∀ (M : List (Ptr × α)) (fuel : Nat) (o : Lst) (h : Heap α) (k : Nat), Fwd h y M → (ids M).Nodup → y ∉ ids M → o.size = k + M.length → M.length < fuel →
    ∃ h', eraseLoop y fuel ((ids M ++ [y]).head (by simp)) o h = some (⟨o.node, k⟩, h') ∧ (∀ q ∈ ids M, h' q = none) ∧ ∀ q, q ∉ ids M → h' q = h q
  | [], fuel + 1, o, h, k, _, _, _, hs, _ => ⟨h, by unfold eraseLoop; rw [if_neg (by simp [ids])]; simp at hs; rw [← hs], by simp [ids], fun _ _ => rfl⟩
  | e :: M, fuel + 1, o, h, k, ⟨a, b, c⟩, hn, hy, hs, hf => by
    simp only [ids, List.map_cons, List.nodup_cons, List.mem_cons, not_or] at hn hy
    obtain ⟨h', e', d', s'⟩ := eraseLoop_ok y M fuel ⟨o.node, k + M.length⟩ (put h e.1 none) k
      (c.frame (fun q hq => put_other _ (by rintro rfl; exact hn.1 hq))) hn.2 hy.2 rfl (by simp at hf; omega)
    refine ⟨h', ?_, ?_, ?_⟩
    · unfold eraseLoop
      rw [if_pos (by simp [ids]; exact fun h => hy.1 h.symm)]
      show (nxt h e.1).bind _ = _
      rw [b]; show (destroyNode h e.1).bind _ = _
      rw [destroy_ok a]; show (decr o).bind _ = _
      rw [decr_ok (n := k + M.length) (by rw [hs]; simp; omega)]
      exact e'
    · intro q hq
      by_cases hm : q ∈ ids M
      · exact d' q hm
      · rw [s' q hm]
        have : q = e.1 := by simp [ids] at hq hm; tauto
        simp [put, this]
    · intro q hq
      simp only [ids, List.map_cons, List.mem_cons, not_or] at hq
      rw [s' q hq.2, put_other _ hq.1]

theorem ids_head_ne {M : List (Ptr × α)} (hM : M ≠ []) (o : Lst) (B : List (Ptr × α)) : (ids M).head? = some (start o (M ++ B)) := by
  cases M with
  | nil => exact absurd rfl hM
  | cons e M => simp [ids, start]

theorem finish_last_ne {M : List (Ptr × α)} (hM : M ≠ []) (o : Lst) (A : List (Ptr × α)) : (ids M).getLast? = some (finish o (A ++ M)) := by
  have : (ids M) ≠ [] := by simpa [ids] using hM
  rw [List.getLast?_eq_some_getLast this]
  simp only [finish, ids, List.map_append]
  rw [List.getLast_cons (by simp [hM]), List.getLast_append_of_ne_nil _ (by simpa [ids] using hM)]

theorem eraseRange_ok {h : Heap α} {o : Lst} {A M B : List (Ptr × α)} (r : Rep h o (A ++ M ++ B)) {fuel : Nat} (hf : M.length < fuel) :
    ∃ h', eraseRange fuel o (start o (M ++ B)) (start o B) h = some (⟨o.node, (A ++ B).length⟩, h') ∧ Rep h' ⟨o.node, (A ++ B).length⟩ (A ++ B)
      ∧ Upd h h' (nodes o (A ++ M ++ B)) (nodes o (A ++ B)) := by
  by_cases hM : M = []
  · subst hM
    refine ⟨h, ?_, by have := r.size; simp at this; exact (by simpa using r : Rep h o (A ++ B)).obj rfl rfl, by simpa using Upd.refl h _⟩
    unfold eraseRange
    rw [if_neg (by simp)]
    have := r.size
    simp at this
    rw [List.length_append, ← this]
  · have hne : start o (M ++ B) ≠ start o B := by
      have nd := r.nodup
      obtain ⟨e, M', rfl⟩ := List.exists_cons_of_ne_nil hM
      cases B with
      | nil => simp [nodes, ids] at nd; simp [start]; exact fun hh => nd.1.2.1 hh.symm
      | cons b B =>
        simp only [nodes, ids, List.map_append, List.map_cons, List.append_assoc, List.cons_append, List.nodup_cons, List.nodup_append, List.mem_append, List.mem_cons] at nd
        simp [start]
        intro hh
        exact nd.2.2.1.1 (Or.inr (Or.inl hh))
    obtain ⟨h1, e1, r1, p1, v1, s1, d1⟩ := rep_unlink r (ids_head_ne hM o B) (finish_last_ne hM o A)
    have fw : Fwd h1 (start o B) M := r.fwd.frame (fun q hq => s1 q (d1 q hq))
    have nd : (ids M).Nodup := by
      have := r.nodup
      simp only [nodes, ids, List.map_append, List.append_assoc, List.nodup_cons, List.nodup_append] at this
      exact this.2.2.1.1
    have yn : start o B ∉ ids M := by
      intro hm
      have := d1 _ hm
      cases B <;> simp [start, nodes, ids] at this
    obtain ⟨h', e', d', s'⟩ := eraseLoop_ok (start o B) M fuel o h1 (A ++ B).length fw nd yn (by rw [r.size]; simp; omega) hf
    refine ⟨h', ?_, r1.frame (fun q hq => s' q (fun hm => d1 q hm hq)), upd_remove d' (fun q hq => ?_)⟩
    · unfold eraseRange
      rw [if_pos hne]
      show (prv h (start o B)).bind _ = _
      rw [r.gap.2]; show (unlinkNodes (start o (M ++ B)) (finish o (A ++ M)) h).bind _ = _
      rw [e1]; show eraseLoop (start o B) fuel (start o (M ++ B)) o h1 = _
      rw [start_cons_head]; exact e'
    · rw [s' q (fun hm => hq (by simp [nodes, ids] at hm ⊢; tauto)), s1 q (fun hm => hq (by simp [nodes, ids] at hm ⊢; tauto))]

/-! ### `clear` and the destructor -/

theorem clearLoop_ok (y : Ptr) : ∀ (M : List (Ptr × α)) (fuel : Nat) (next : Ptr) (h : Heap α), Fwd h y M → (ids M).Nodup → y ∉ ids M → (∃ z, nxt h y = some z) → (M ≠ [] → nxt h ((ids M ++ [y]).head (by simp)) = some next) →
    M.length < fuel →
    ∃ h', clearLoop y fuel ((ids M ++ [y]).head (by simp)) next h = some h' ∧ (∀ q ∈ ids M, h' q = none) ∧ ∀ q, q ∉ ids M → h' q = h q
  | [], fuel + 1, next, h, _, _, _, _, _, _ => ⟨h, by unfold clearLoop; rw [if_neg (by simp [ids])], by simp [ids], fun _ _ => rfl⟩
  | e :: M, fuel + 1, next, h, ⟨a, b, c⟩, hn, hy, ⟨z, hz⟩, hx, hf => by
    simp only [ids, List.map_cons, List.nodup_cons, List.mem_cons, not_or] at hn hy
    have hnext : next = (ids M ++ [y]).head (by simp) := by
      have := hx (by simp)
      simp only [ids, List.map_cons, List.cons_append, List.head_cons] at this
      rw [b] at this
      exact (Option.some.inj this).symm
    have c' : Fwd (put h e.1 none) y M := c.frame (fun q hq => put_other _ (by rintro rfl; exact hn.1 hq))
    have hz' : nxt (put h e.1 none) y = some z := by unfold nxt; rw [put_other _ hy.1]; exact hz
    obtain ⟨w, hw⟩ : ∃ w, nxt (put h e.1 none) next = some w := by
      rw [hnext]
      cases M with
      | nil => exact ⟨z, hz'⟩
      | cons e2 M => exact ⟨_, c'.2.1⟩
    obtain ⟨h', e', d', s'⟩ := clearLoop_ok y M fuel w (put h e.1 none) c' hn.2 hy.2 ⟨z, hz'⟩ (fun _ => by rw [← hnext]; exact hw) (by simp at hf; omega)
    refine ⟨h', ?_, ?_, ?_⟩
    · unfold clearLoop
      rw [if_pos (by simp [ids]; exact fun h => hy.1 h.symm)]
      show (destroyNode h e.1).bind _ = _
      rw [destroy_ok a]; show (nxt (put h e.1 none) next).bind _ = _
      rw [hw, hnext]; exact e'
    · intro q hq
      by_cases hm : q ∈ ids M
      · exact d' q hm
      · rw [s' q hm]
        have : q = e.1 := by simp [ids] at hq hm; tauto
        simp [put, this]
    · intro q hq
      simp only [ids, List.map_cons, List.mem_cons, not_or] at hq
      rw [s' q hq.2, put_other _ hq.1]

theorem clear_ok {h : Heap α} {o : Lst} {L : List (Ptr × α)} (r : Rep h o L) {fuel : Nat} (hf : L.length < fuel) :
    ∃ h', clear fuel o h = some (⟨o.node, 0⟩, h') ∧ Rep h' ⟨o.node, 0⟩ ([] : List (Ptr × α)) ∧ Upd h h' (nodes o L) [o.node] := by
  by_cases hL : L = []
  · subst hL
    have hs := r.size
    simp at hs
    refine ⟨h, ?_, r.obj rfl rfl, by simpa [nodes] using Upd.refl h [o.node]⟩
    unfold clear
    rw [if_neg (by simpa using hs), ← hs]
  · obtain ⟨e, L', hL'⟩ := List.exists_cons_of_ne_nil hL
    have hs : o.size ≠ 0 := by rw [r.size, hL']; simp
    have r0 : Rep h o ([] ++ L ++ []) := by simpa using r
    have nd := r.nodup
    simp only [nodes, List.nodup_cons] at nd
    have st : start o L = e.1 := by rw [hL']; rfl
    have st' : start o L = (ids L ++ [o.node]).head (by simp) := by rw [hL']; rfl
    have nx : nxt h e.1 = some (start o L') := by
      have : Rep h o ([] ++ e :: L') := by rw [hL'] at r; exact r
      exact this.next
    obtain ⟨h1, e1, d1, s1⟩ := clearLoop_ok o.node L fuel (start o L') h r0.fwd nd.2 nd.1 ⟨_, r.begin⟩ (fun _ => by rw [← st', st]; exact nx) hf
    have hn1 : h1 o.node = h o.node := s1 _ nd.1
    obtain ⟨h2, e2, q2, n2, v2⟩ := setPrev_ok (h := h1) (p := o.node) o.node (by unfold vl; rw [hn1]; have := r.head; unfold vl at this; rw [this]; simp)
    obtain ⟨h3, e3, n3, q3, v3⟩ := setNext_ok (h := h2) (p := o.node) o.node (by rw [v2]; unfold vl; rw [hn1]; have := r.head; unfold vl at this; rw [this]; simp)
    have oth : ∀ q, q ≠ o.node → h3 q = h1 q := fun q hq => heap_ext (by rw [n3, if_neg hq, n2]) (by rw [q3, q2, if_neg hq]) (by rw [v3, v2])
    refine ⟨h3, ?_, ⟨⟨?_, by simp [ids], ?_⟩, by simp, ?_, rfl⟩, ?_, ?_, ?_⟩
    · unfold clear
      rw [if_pos hs]
      show (nxt h o.node).bind _ = _
      rw [r.begin, st]; show (nxt h e.1).bind _ = _
      rw [nx]; show (clearLoop o.node fuel e.1 (start o L') h).bind _ = _
      rw [← st, st', e1]; show (setPrev h1 o.node o.node).bind _ = _
      rw [e2]; show (setNext h2 o.node o.node).bind _ = _
      rw [e3]; rfl
    · show Path h3 [o.node, o.node]
      rw [Path, List.isChain_cons_cons]
      exact ⟨⟨by rw [n3, if_pos rfl], by rw [q3, q2, if_pos rfl]⟩, List.IsChain.singleton _⟩
    · have := r.nonzero; simp [nodes, ids] at this ⊢; exact this.1
    · show vl h3 o.node = _
      rw [v3, v2]; unfold vl; rw [hn1]; exact r.head
    · intro q h1' h2'
      have : q ≠ o.node := by simpa using h2'
      rw [oth q this, s1 q (fun hm => h1' (by simp [nodes, hm]))]
    · intro q h1' h2'
      have : q ≠ o.node := by simpa using h2'
      rw [oth q this]
      exact d1 q (by simpa [nodes, this] using h1')
    · intro q h1' h2'
      exact absurd (by simp at h1'; simp [nodes, h1']) h2'

theorem destruct_ok {h : Heap α} {o : Lst} {L : List (Ptr × α)} (r : Rep h o L) {fuel : Nat} (hf : L.length < fuel) :
    ∃ h', destruct fuel o h = some h' ∧ Upd h h' (nodes o L) [] := by
  obtain ⟨h1, e1, r1, u1⟩ := clear_ok r hf
  have hn : o.node ≠ 0 := by have := r.nonzero; simp [nodes] at this; exact fun h => this.1 h.symm
  obtain ⟨c, hc⟩ := alive_vl.mp (r1.ring.alive (q := o.node) (by simp))
  refine ⟨put h1 o.node none, ?_, u1.trans ⟨fun q hq _ => put_other _ (by simpa using hq), fun q hq _ => ?_, by simp⟩⟩
  · unfold destruct
    rw [if_pos hn]
    show (clear fuel o h).bind _ = _
    rw [e1]; show (h1 o.node).bind _ = _
    rw [hc]; rfl
  · rw [List.mem_singleton.mp hq]; simp [put]

theorem destruct_null (fuel : Nat) (o : Lst) (ho : o.node = 0) (h : Heap α) : destruct fuel o h = some h := by
  unfold destruct
  rw [if_neg (by simpa using ho)]

end Verif.DList
