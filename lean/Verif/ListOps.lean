import Verif.ListRep

/-!
# Insertion and removal in `mystl::list` (used by C81)
-/

namespace Verif.DList

variable {α : Type}

abbrev ids (L : List (Ptr × α)) : List Ptr := L.map Prod.fst

/-- the list object `o` holds the nodes and values `L` -/
structure Rep (h : Heap α) (o : Lst) (L : List (Ptr × α)) : Prop where
  ring : Ring h o.node (ids L)
  vals : ∀ e ∈ L, vl h e.1 = some (some e.2)
  head : vl h o.node = some none
  size : o.size = L.length

/-- the addresses a list owns -/
def nodes (o : Lst) (L : List (Ptr × α)) : List Ptr := o.node :: ids L

/-- only the addresses `N` are written, and `N'` are the ones in use instead of them afterwards -/
structure Upd (h h' : Heap α) (N N' : List Ptr) : Prop where
  same : ∀ q, q ∉ N → q ∉ N' → h' q = h q
  dead : ∀ q ∈ N, q ∉ N' → h' q = none
  new : ∀ q ∈ N', q ∉ N → h q = none

theorem Upd.refl (h : Heap α) (N : List Ptr) : Upd h h N N := ⟨fun _ _ _ => rfl, fun _ h1 h2 => absurd h1 h2, fun _ h1 h2 => absurd h1 h2⟩

theorem Upd.trans {h h1 h2 : Heap α} {N N1 N2 : List Ptr} (a : Upd h h1 N N1) (b : Upd h1 h2 N1 N2) : Upd h h2 N N2 := by
  refine ⟨fun q h3 h4 => ?_, fun q h3 h4 => ?_, fun q h3 h4 => ?_⟩
  · by_cases e : q ∈ N1
    · rw [b.dead q e h4, a.new q e h3]
    · rw [b.same q e h4, a.same q h3 e]
  · by_cases e : q ∈ N1
    · exact b.dead q e h4
    · rw [b.same q e h4, a.dead q h3 e]
  · by_cases e : q ∈ N1
    · exact a.new q e h4
    · rw [← a.same q h4 e, b.new q h3 e]

theorem Upd.congr {h h' : Heap α} {N N' M M' : List Ptr} (a : Upd h h' N N') (e : ∀ q, q ∈ N ↔ q ∈ M) (e' : ∀ q, q ∈ N' ↔ q ∈ M') : Upd h h' M M' :=
  ⟨fun q h1 h2 => a.same q (by rwa [e]) (by rwa [e']), fun q h1 h2 => a.dead q (by rwa [e]) (by rwa [e']), fun q h1 h2 => a.new q (by rwa [e']) (by rwa [e])⟩

theorem Upd.of_eq {h h' : Heap α} {N N' M M' : List Ptr} (a : Upd h h' N N') (e : N = M) (e' : N' = M') : Upd h h' M M' := by rw [← e, ← e']; exact a

theorem Upd.add {h h' : Heap α} {N N' : List Ptr} (a : Upd h h' N N') (X : List Ptr) : Upd h h' (N ++ X) (N' ++ X) := by
  refine ⟨fun q h1 h2 => ?_, fun q h1 h2 => ?_, fun q h1 h2 => ?_⟩ <;> simp only [List.mem_append, not_or] at h1 h2
  · exact a.same q h1.1 h2.1
  · exact a.dead q (h1.resolve_right h2.2) h2.1
  · exact a.new q (h1.resolve_right h2.2) h2.1

theorem Upd.comm {h h' : Heap α} {A B C D : List Ptr} (a : Upd h h' (A ++ B) (C ++ D)) : Upd h h' (B ++ A) (D ++ C) :=
  a.congr (fun q => by simp [or_comm]) (fun q => by simp [or_comm])

/-- finitely many cells -/
def Bounded (h : Heap α) : Prop := ∃ n, ∀ q, n ≤ q → h q = none

/-- an allocator gives addresses that are not in use -/
def Allocator (fresh : Heap α → Ptr) : Prop := ∀ h, Bounded h → fresh h ≠ 0 ∧ h (fresh h) = none

theorem bounded_put {h : Heap α} (hb : Bounded h) (p : Ptr) (c : Option (Cell α)) : Bounded (put h p c) := by
  obtain ⟨n, hn⟩ := hb
  refine ⟨max n (p + 1), fun q hq => ?_⟩
  unfold put
  rw [if_neg (by omega), hn q (by omega)]

theorem Upd.bounded {h h' : Heap α} {N N' : List Ptr} (a : Upd h h' N N') (hb : Bounded h) : Bounded h' := by
  obtain ⟨n, hn⟩ := hb
  refine ⟨max n ((N'.foldr max 0) + 1), fun q hq => ?_⟩
  have hm : ∀ l : List Ptr, ∀ q ∈ l, q ≤ l.foldr max 0 := by
    intro l
    induction l with
    | nil => simp
    | cons a l ih =>
      intro q hq
      rcases List.mem_cons.mp hq with rfl | hq
      · simp only [List.foldr_cons]; omega
      · have := ih q hq; simp only [List.foldr_cons]; omega
  have h1 : q ∉ N' := fun h => by have := hm _ _ h; omega
  by_cases e : q ∈ N
  · exact a.dead q e h1
  · rw [a.same q e h1, hn q (by omega)]

theorem create_ok {fresh : Heap α → Ptr} (hf : Allocator fresh) {h : Heap α} (hb : Bounded h) (v : α) :
    ∃ p h1, createNode fresh h v = (p, h1) ∧ p ≠ 0 ∧ h p = none ∧ vl h1 p = some (some v) ∧ (∀ q, q ≠ p → h1 q = h q) ∧ Bounded h1 ∧ nxt h1 p = some 0 ∧ prv h1 p = some 0 := by
  obtain ⟨f0, f1⟩ := hf h hb
  refine ⟨_, _, rfl, f0, f1, ?_, fun q hq => ?_, bounded_put hb _ _, ?_, ?_⟩
  · simp [vl, put]
  · simp [put, hq]
  · simp [nxt, put]
  · simp [prv, put]

theorem Rep.frame {h h' : Heap α} {o : Lst} {L : List (Ptr × α)} (r : Rep h o L) (hs : ∀ q ∈ nodes o L, h' q = h q) : Rep h' o L := by
  refine ⟨r.ring.frame' hs, fun e he => ?_, ?_, r.size⟩
  · unfold vl; rw [hs e.1 (List.mem_cons_of_mem _ (List.mem_map_of_mem he))]; exact r.vals e he
  · unfold vl; rw [hs o.node (by simp [nodes])]; exact r.head

theorem Rep.alive {h : Heap α} {o : Lst} {L : List (Ptr × α)} (r : Rep h o L) {q : Ptr} (hq : q ∈ nodes o L) : h q ≠ none := by
  have := r.ring.alive hq
  intro e; unfold vl at this; rw [e] at this; exact this rfl

theorem Rep.nonzero {h : Heap α} {o : Lst} {L : List (Ptr × α)} (r : Rep h o L) : 0 ∉ nodes o L := r.ring.pos

theorem Rep.upd_frame {h h' : Heap α} {o : Lst} {L : List (Ptr × α)} (r : Rep h o L) {N N' : List Ptr} (u : Upd h h' N N') (hd : ∀ q ∈ nodes o L, q ∉ N) : Rep h' o L := by
  refine r.frame (fun q hq => u.same q (hd q hq) (fun h1 => r.alive hq (u.new q h1 (hd q hq))))

/-- the beginning of the rest of a ring -/
theorem head_rest (hd : Ptr) (B : List Ptr) : ∃ y, (B ++ [hd]).head? = some y := ⟨_, List.head?_eq_some_head (by simp)⟩

/-- after a chain of new nodes has been linked in -/
theorem rep_insert {h h1 h' : Heap α} {o : Lst} {A M B : List (Ptr × α)} (r : Rep h o (A ++ B)) (hM : ∀ e ∈ M, vl h1 e.1 = some (some e.2)) (hn : ∀ e ∈ M, h e.1 = none)
    (hs : ∀ q, q ∉ ids M → h1 q = h q) (r' : Ring h' o.node (ids A ++ ids M ++ ids B)) (v' : ∀ q, vl h' q = vl h1 q) (s' : ∀ q, q ∉ o.node :: (ids A ++ ids M ++ ids B) → h' q = h1 q) :
    Rep h' ⟨o.node, o.size + M.length⟩ (A ++ M ++ B) ∧ Upd h h' (nodes o (A ++ B)) (nodes o (A ++ M ++ B)) := by
  have hM' : ∀ q ∈ nodes o (A ++ B), q ∉ ids M := by
    intro q hq hm
    obtain ⟨e, he, rfl⟩ := List.mem_map.mp hm
    exact r.alive hq (hn e he)
  have old : ∀ q ∈ nodes o (A ++ B), vl h' q = vl h q := by
    intro q hq
    rw [v']; unfold vl; rw [hs q (hM' q hq)]
  refine ⟨⟨by simpa [ids] using r', ?_, ?_, ?_⟩, ?_, ?_, ?_⟩
  · intro e he
    simp only [List.mem_append] at he
    rcases he with (he | he) | he
    · rw [old e.1 (by simp [nodes, ids]; right; exact Or.inl ⟨e.2, he⟩)]; exact r.vals e (by simp [he])
    · rw [v']; exact hM e he
    · rw [old e.1 (by simp [nodes, ids]; right; exact Or.inr ⟨e.2, he⟩)]; exact r.vals e (by simp [he])
  · rw [old o.node (by simp [nodes])]; exact r.head
  · show o.size + M.length = _
    rw [r.size]; simp; omega
  · intro q h1' h2
    rw [s' q (by simpa [nodes, ids] using h2), hs q (by intro hm; exact h2 (by simp [nodes, ids] at hm ⊢; tauto))]
  · intro q h1' h2
    exact absurd (by simp [nodes, ids] at h1' ⊢; tauto) h2
  · intro q h1' h2
    have : q ∈ ids M := by simp [nodes, ids] at h1' h2 ⊢; tauto
    obtain ⟨e, he, rfl⟩ := List.mem_map.mp this
    exact hn e he

theorem path_single (h : Heap α) (p : Ptr) : Path h [p] := List.IsChain.singleton p

section
variable {fresh : Heap α → Ptr} (hf : Allocator fresh)
include hf

/-- one new node before position `y` -/
theorem emplace_ok {h : Heap α} {o : Lst} {A B : List (Ptr × α)} (r : Rep h o (A ++ B)) (hb : Bounded h) (v : α) {y : Ptr} (hy : (ids B ++ [o.node]).head? = some y) :
    ∃ p h', emplace fresh o y v h = some (p, ⟨o.node, o.size + 1⟩, h') ∧ h p = none ∧ Rep h' ⟨o.node, o.size + 1⟩ (A ++ (p, v) :: B)
      ∧ Upd h h' (nodes o (A ++ B)) (nodes o (A ++ (p, v) :: B)) := by
  obtain ⟨p, h1, e1, p0, pn, pv, hs, _, _, _⟩ := create_ok hf hb v
  have r1 := r.frame (h' := h1) (fun q hq => hs q (by rintro rfl; exact r.alive hq pn))
  have hd' : ∀ q ∈ [p], q ∉ o.node :: (ids A ++ ids B) := by
    intro q hq hq'
    rw [List.mem_singleton.mp hq] at hq'
    exact r.alive (q := p) (by simpa [nodes, ids] using hq') pn
  obtain ⟨h', e', r', v', s'⟩ := ring_link (A := ids A) (B := ids B) (M := [p]) (f := p) (l := p) (by simpa [ids] using r1.ring) (path_single h1 p) (by simp) (by simpa using p0.symm) hd'
    (by simp [pv]) rfl rfl hy
  obtain ⟨k1, k2⟩ := rep_insert (M := [(p, v)]) r (by simpa using pv) (by simpa using pn) (by intro q hq; exact hs q (by simpa [ids] using hq)) r' v' s'
  refine ⟨p, h', ?_, pn, by simpa using k1, by simpa using k2⟩
  unfold emplace
  rw [e1]
  show (linkNodes y p p h1).bind _ = _
  rw [e']; rfl

theorem pushBack_ok {h : Heap α} {o : Lst} {A : List (Ptr × α)} (r : Rep h o A) (hb : Bounded h) (v : α) :
    ∃ p h', pushBack fresh o v h = some (⟨o.node, o.size + 1⟩, h') ∧ h p = none ∧ Rep h' ⟨o.node, o.size + 1⟩ (A ++ [(p, v)])
      ∧ Upd h h' (nodes o A) (nodes o (A ++ [(p, v)])) := by
  obtain ⟨p, h1, e1, p0, pn, pv, hs, _, _, _⟩ := create_ok hf hb v
  have r1 := r.frame (h' := h1) (fun q hq => hs q (by rintro rfl; exact r.alive hq pn))
  have hd' : ∀ q ∈ [p], q ∉ o.node :: ids A := by
    intro q hq hq'
    rw [List.mem_singleton.mp hq] at hq'
    exact r.alive (q := p) (by simpa [nodes, ids] using hq') pn
  obtain ⟨h', e', r', v', s'⟩ := ring_back (M := [p]) (f := p) (l := p) r1.ring (path_single h1 p) (by simp) (by simpa using p0.symm) hd' (by simp [pv]) rfl rfl
  obtain ⟨k1, k2⟩ := rep_insert (h := h) (A := A) (M := [(p, v)]) (B := []) (by simpa using r) (by simpa using pv) (by simpa using pn) (by intro q hq; exact hs q (by simpa [ids] using hq))
    (by simpa using r') v' (by simpa using s')
  refine ⟨p, h', ?_, pn, by simpa using k1, by simpa using k2⟩
  unfold pushBack
  rw [e1]
  show (linkBack o.node p p h1).bind _ = _
  rw [e']; rfl

theorem pushFront_ok {h : Heap α} {o : Lst} {B : List (Ptr × α)} (r : Rep h o B) (hb : Bounded h) (v : α) :
    ∃ p h', pushFront fresh o v h = some (⟨o.node, o.size + 1⟩, h') ∧ h p = none ∧ Rep h' ⟨o.node, o.size + 1⟩ ((p, v) :: B)
      ∧ Upd h h' (nodes o B) (nodes o ((p, v) :: B)) := by
  obtain ⟨p, h1, e1, p0, pn, pv, hs, _, _, _⟩ := create_ok hf hb v
  have r1 := r.frame (h' := h1) (fun q hq => hs q (by rintro rfl; exact r.alive hq pn))
  have hd' : ∀ q ∈ [p], q ∉ o.node :: ids B := by
    intro q hq hq'
    rw [List.mem_singleton.mp hq] at hq'
    exact r.alive (q := p) (by simpa [nodes, ids] using hq') pn
  obtain ⟨h', e', r', v', s'⟩ := ring_front (M := [p]) (f := p) (l := p) r1.ring (path_single h1 p) (by simp) (by simpa using p0.symm) hd' (by simp [pv]) rfl rfl
  obtain ⟨k1, k2⟩ := rep_insert (h := h) (A := []) (M := [(p, v)]) (B := B) (by simpa using r) (by simpa using pv) (by simpa using pn) (by intro q hq; exact hs q (by simpa [ids] using hq))
    (by simpa using r') v' (by simpa using s')
  refine ⟨p, h', ?_, pn, by simpa using k1, by simpa using k2⟩
  unfold pushFront
  rw [e1]
  show (linkFront o.node p p h1).bind _ = _
  rw [e']; rfl

theorem insert1_ok {h : Heap α} {o : Lst} {A B : List (Ptr × α)} (r : Rep h o (A ++ B)) (hb : Bounded h) (v : α) {y : Ptr} (hy : (ids B ++ [o.node]).head? = some y) :
    ∃ p h', insert1 fresh o y v h = some (p, ⟨o.node, o.size + 1⟩, h') ∧ h p = none ∧ Rep h' ⟨o.node, o.size + 1⟩ (A ++ (p, v) :: B)
      ∧ Upd h h' (nodes o (A ++ B)) (nodes o (A ++ (p, v) :: B)) := by
  obtain ⟨p, h1, e1, p0, pn, pv, hs, _, _, _⟩ := create_ok hf hb v
  have r1 := r.frame (h' := h1) (fun q hq => hs q (by rintro rfl; exact r.alive hq pn))
  have hd' : ∀ q ∈ [p], q ∉ o.node :: (ids A ++ ids B) := by
    intro q hq hq'
    rw [List.mem_singleton.mp hq] at hq'
    exact r.alive (q := p) (by simpa [nodes, ids] using hq') pn
  have rr : Ring h1 o.node (ids A ++ ids B) := by simpa [ids] using r1.ring
  obtain ⟨b, hbg⟩ := head_rest o.node (ids A ++ ids B)
  have gb : nxt h1 o.node = some b := by
    have : Ring h1 o.node ([] ++ (ids A ++ ids B)) := rr
    exact (this.gap rfl hbg).1
  have key : ∃ h', linkIterNode o.node y p h1 = some h' ∧ Ring h' o.node (ids A ++ [p] ++ ids B) ∧ (∀ q, vl h' q = vl h1 q) ∧ ∀ q, q ∉ o.node :: (ids A ++ [p] ++ ids B) → h' q = h1 q := by
    unfold linkIterNode
    rw [gb]
    show ∃ h', (if y = b then linkFront o.node p p h1 else if y = o.node then linkBack o.node p p h1 else linkNodes y p p h1) = some h' ∧ _
    by_cases c1 : y = b
    · rw [if_pos c1]
      -- the position is the beginning
      have hA : A = [] := by
        cases A with
        | nil => rfl
        | cons a A =>
          simp [ids] at hbg
          rw [← hbg] at c1
          have nd := rr.nodup
          have ym := mem_head hy
          rw [c1] at ym
          simp [ids] at nd ym
          rcases ym with ⟨v, hv⟩ | e
          · exact absurd hv (nd.2.1.2 v)
          · exact absurd e.symm nd.1.1
      subst hA
      exact ring_front (M := [p]) (f := p) (l := p) rr (path_single h1 p) (by simp) (by simpa using p0.symm) hd' (by simp [pv]) rfl rfl
    · rw [if_neg c1]
      by_cases c2 : y = o.node
      · rw [if_pos c2]
        have hB : B = [] := by
          cases B with
          | nil => rfl
          | cons a B =>
            simp [ids] at hy
            have nd := rr.nodup
            simp [ids] at nd
            rw [← hy] at c2
            exact absurd c2.symm nd.1.2.1
        subst hB
        have := ring_back (A := ids A) (M := [p]) (f := p) (l := p) (by simpa using rr) (path_single h1 p) (by simp) (by simpa using p0.symm) (by simpa using hd') (by simp [pv]) rfl rfl
        simpa using this
      · rw [if_neg c2]
        exact ring_link (f := p) (l := p) rr (path_single h1 p) (by simp) (by simpa using p0.symm) hd' (by simp [pv]) rfl rfl hy
  obtain ⟨h', e', r', v', s'⟩ := key
  obtain ⟨k1, k2⟩ := rep_insert (M := [(p, v)]) r (by simpa using pv) (by simpa using pn) (by intro q hq; exact hs q (by simpa [ids] using hq)) r' v' s'
  refine ⟨p, h', ?_, pn, by simpa using k1, by simpa using k2⟩
  unfold insert1
  rw [e1]
  show (linkIterNode o.node y p h1).bind _ = _
  rw [e']; rfl

/-- the chain built by `copy_insert` -/
theorem chainLoop_ok : ∀ (vs : List α) (M : List (Ptr × α)) (h0 h : Heap α) (e : Ptr), Bounded h → Path h (ids M) → (ids M).Nodup → 0 ∉ ids M → (ids M).getLast? = some e →
    (∀ e ∈ M, vl h e.1 = some (some e.2)) → (∀ e ∈ M, h0 e.1 = none) → (∀ q, q ∉ ids M → h q = h0 q) →
    ∃ (N : List (Ptr × α)) (e' : Ptr) (h' : Heap α), chainLoop fresh vs e h = some (e', h') ∧ N.map Prod.snd = vs ∧ Bounded h' ∧ Path h' (ids (M ++ N)) ∧ (ids (M ++ N)).Nodup ∧ 0 ∉ ids (M ++ N)
      ∧ (ids (M ++ N)).getLast? = some e' ∧ (∀ e ∈ M ++ N, vl h' e.1 = some (some e.2)) ∧ (∀ e ∈ M ++ N, h0 e.1 = none) ∧ ∀ q, q ∉ ids (M ++ N) → h' q = h0 q
  | [], M, h0, h, e, hb, hp, hn, hz, hl, hv, hd, hs => ⟨[], e, h, rfl, rfl, hb, by simpa using hp, by simpa using hn, by simpa using hz, by simpa using hl, by simpa using hv, by simpa using hd, by simpa using hs⟩
  | v :: vs, M, h0, h, e, hb, hp, hn, hz, hl, hv, hd, hs => by
    obtain ⟨p, h1, e1, p0, pn, pv, hs1, hb1, pn1, pp1⟩ := create_ok hf hb v
    have pM : p ∉ ids M := by
      intro hm
      obtain ⟨x, hx, rfl⟩ := List.mem_map.mp hm
      have := hv x hx
      unfold vl at this; rw [pn] at this; simp at this
    have em := mem_last hl
    have ep : e ≠ p := by rintro rfl; exact pM em
    have ae : vl h1 e ≠ none := by
      obtain ⟨x, hx, rfl⟩ := List.mem_map.mp em
      unfold vl; rw [hs1 _ ep]
      have := hv x hx
      unfold vl at this; rw [this]; simp
    obtain ⟨h2, e2, n2, q2, v2⟩ := setNext_ok p ae
    obtain ⟨h3, e3, q3, n3, v3⟩ := setPrev_ok (h := h2) (p := p) e (by rw [v2, pv]; simp)
    have hs3 : ∀ q, q ∉ ids (M ++ [(p, v)]) → h3 q = h0 q := by
      intro q hq
      simp [ids] at hq
      have qe : q ≠ e := by rintro rfl; obtain ⟨x, hx, rfl⟩ := List.mem_map.mp em; exact hq.1 _ hx
      have : h3 q = h1 q := heap_ext (by rw [n3, n2, if_neg qe]) (by rw [q3, if_neg hq.2, q2]) (by rw [v3, v2])
      rw [this, hs1 q hq.2, hs q (by simpa [ids] using hq.1)]
    have hb3 : Bounded h3 := by
      obtain ⟨n, hn⟩ := hb1
      refine ⟨n, fun q hq => ?_⟩
      have := v3 q
      rw [v2] at this
      unfold vl at this
      rw [hn q hq] at this
      simpa using this
    have pnew : h0 p = none := by rw [← hs p pM]; exact pn
    have hp3 : Path h3 (ids (M ++ [(p, v)])) := by
      have : ids (M ++ [(p, v)]) = ids M ++ [p] := by simp [ids]
      rw [this, path_append hl rfl]
      refine ⟨path_frame hp (fun q hq => ?_) (fun q hq => ?_), path_single _ _, ?_, ?_⟩
      · have q1 : q ≠ e := by rintro rfl; exact not_mem_dropLast hn hl hq
        have q2' : q ≠ p := by rintro rfl; exact pM (List.dropLast_subset _ hq)
        rw [n3, n2, if_neg q1]; unfold nxt; rw [hs1 q q2']
      · have q2' : q ≠ p := by rintro rfl; exact pM (List.mem_of_mem_tail hq)
        rw [q3, if_neg q2', q2]; unfold prv; rw [hs1 q q2']
      · rw [n3, n2, if_pos rfl]
      · rw [q3, if_pos rfl]
    obtain ⟨N, e', h', k1, k2, k3, k4, k5, k6, k7, k8, k9, k10⟩ := chainLoop_ok vs (M ++ [(p, v)]) h0 h3 p hb3 hp3
      (by simp [ids, List.nodup_append]; refine ⟨by simpa [ids] using hn, ?_⟩; intro a x hx hh; rw [hh] at hx; exact pM (List.mem_map.mpr ⟨_, hx, rfl⟩))
      (by simp [ids] at hz ⊢; exact ⟨hz, p0.symm⟩) (by simp [ids])
      (by
        intro x hx
        rcases List.mem_append.mp hx with hx | hx
        · have : x.1 ≠ p := by rintro e; exact pM (by rw [← e]; exact List.mem_map_of_mem hx)
          rw [v3, v2]; unfold vl; rw [hs1 _ this]; exact hv x hx
        · simp at hx; rw [hx, v3, v2]; exact pv)
      (by
        intro x hx
        rcases List.mem_append.mp hx with hx | hx
        · exact hd x hx
        · simp at hx; rw [hx]; exact pnew) hs3
    refine ⟨(p, v) :: N, e', h', ?_, by simp [k2], k3, by simpa using k4, by simpa using k5, by simpa using k6, by simpa using k7, by simpa using k8, by simpa using k9, by simpa using k10⟩
    unfold chainLoop
    rw [e1]
    show (setNext h1 e p).bind _ = _
    rw [e2]; show (setPrev h2 p e).bind _ = _
    rw [e3]; exact k1

theorem insertRange_ok {h : Heap α} {o : Lst} {A B : List (Ptr × α)} (r : Rep h o (A ++ B)) (hb : Bounded h) (vs : List α) {y : Ptr} (hy : (ids B ++ [o.node]).head? = some y) :
    ∃ (M : List (Ptr × α)) (h' : Heap α), insertRange fresh o y vs h = some (((ids (M ++ B) ++ [o.node]).head?).getD 0, ⟨o.node, o.size + vs.length⟩, h') ∧ M.map Prod.snd = vs ∧ (∀ e ∈ M, h e.1 = none)
      ∧ Rep h' ⟨o.node, o.size + vs.length⟩ (A ++ M ++ B) ∧ Upd h h' (nodes o (A ++ B)) (nodes o (A ++ M ++ B)) := by
  cases vs with
  | nil => exact ⟨[], h, by simp [insertRange]; simp at hy; rw [hy], rfl, by simp, by simpa using r, by simpa using Upd.refl h _⟩
  | cons v vs =>
    obtain ⟨p, h1, e1, p0, pn, pv, hs1, hb1, pn1, pp1⟩ := create_ok hf hb v
    obtain ⟨h2, e2, q2, n2, v2⟩ := setPrev_ok (h := h1) (p := p) 0 (by rw [pv]; simp)
    have h21 : ∀ q, q ≠ p → h2 q = h q := fun q hq => by rw [heap_ext (n2 q) (by rw [q2, if_neg hq]) (v2 q), hs1 q hq]
    have hb2 : Bounded h2 := by
      obtain ⟨n, hn⟩ := hb1
      refine ⟨n, fun q hq => ?_⟩
      have := v2 q
      unfold vl at this
      rw [hn q hq] at this
      simpa using this
    obtain ⟨N, e', h3, k1, k2, k3, k4, k5, k6, k7, k8, k9, k10⟩ := chainLoop_ok hf vs [(p, v)] h h2 p hb2 (path_single _ _) (by simp) (by simpa using p0.symm) rfl (by simpa [v2] using pv) (by simpa using pn)
      (by intro q hq; exact h21 q (by simpa using hq))
    have hd' : ∀ q ∈ ids ([(p, v)] ++ N), q ∉ o.node :: (ids A ++ ids B) := by
      intro q hq hq'
      obtain ⟨x, hx, rfl⟩ := List.mem_map.mp hq
      exact r.alive (q := x.1) (by simpa [nodes, ids] using hq') (k9 x hx)
    have r3 := r.frame (h' := h3) (fun q hq => k10 q (fun hm => hd' q hm (by simpa [nodes, ids] using hq)))
    obtain ⟨h', e'', r', v', s'⟩ := ring_link (A := ids A) (B := ids B) (M := ids ([(p, v)] ++ N)) (f := p) (by simpa [ids] using r3.ring) k4 k5 k6 hd'
      (by intro q hq; obtain ⟨x, hx, rfl⟩ := List.mem_map.mp hq; rw [k8 x hx]; simp) rfl k7 hy
    obtain ⟨j1, j2⟩ := rep_insert (M := [(p, v)] ++ N) r k8 k9 k10 r' v' s'
    have hlen : ([(p, v)] ++ N).length = (v :: vs).length := by
      rw [← k2]; simp
    refine ⟨[(p, v)] ++ N, h', ?_, by simp [k2], k9, by rw [hlen] at j1; exact j1, j2⟩
    unfold insertRange
    simp only
    rw [e1]
    show (setPrev h1 p 0).bind _ = _
    rw [e2]; show (chainLoop fresh vs p h2).bind _ = _
    rw [k1]; show (linkNodes y p e' h3).bind _ = _
    rw [e'']; rfl

theorem initLoop_ok : ∀ (vs : List α) {h : Heap α} {o : Lst} {A : List (Ptr × α)}, Rep h o A → Bounded h →
    ∃ (M : List (Ptr × α)) (h' : Heap α), initLoop fresh o.node vs h = some h' ∧ M.map Prod.snd = vs ∧ (∀ e ∈ M, h e.1 = none) ∧ Rep h' ⟨o.node, o.size + vs.length⟩ (A ++ M)
      ∧ Upd h h' (nodes o A) (nodes o (A ++ M))
  | [], h, o, A, r, hb => ⟨[], h, rfl, rfl, by simp, by simpa using r, by simpa using Upd.refl h _⟩
  | v :: vs, h, o, A, r, hb => by
    obtain ⟨p, h1, e1, pn, r1, u1⟩ := pushBack_ok hf r hb v
    obtain ⟨M, h', e', m', n', r', u'⟩ := initLoop_ok vs r1 (u1.bounded hb)
    have w : ∀ e ∈ M, h e.1 = none := by
      intro e he
      have hh : h1 e.1 = none := n' e he
      have a1 : e.1 ∉ nodes o (A ++ [(p, v)]) := fun hm => r1.alive (o := ⟨o.node, o.size + 1⟩) hm hh
      have a2 : e.1 ∉ nodes o A := fun hm => a1 (by simp [nodes, ids] at hm ⊢; tauto)
      rw [← u1.same _ a2 a1]; exact hh
    refine ⟨(p, v) :: M, h', ?_, by simp [m'], ?_, ?_, ?_⟩
    · unfold pushBack at e1
      unfold initLoop
      cases hc : createNode fresh h v with
      | mk a b =>
        rw [hc] at e1
        simp only at e1 ⊢
        cases hl : linkBack o.node a a b with
        | none => rw [hl] at e1; exact absurd e1 (by intro hh; cases hh)
        | some c =>
          rw [hl] at e1
          have : c = h1 := by
            have k : some ((⟨o.node, o.size + 1⟩ : Lst), c) = some (⟨o.node, o.size + 1⟩, h1) := e1
            simpa using k
          rw [this]; exact e'
    · intro e he
      rcases List.mem_cons.mp he with rfl | he
      · exact pn
      · exact w e he
    · have : o.size + 1 + vs.length = o.size + (v :: vs).length := by simp; omega
      rw [this] at r'
      simpa using r'
    · have := u1.trans (u'.of_eq (by rfl) (by rfl))
      simpa [nodes] using this

theorem copyInit_ok (vs : List α) {h : Heap α} (hb : Bounded h) :
    ∃ (o : Lst) (M : List (Ptr × α)) (h' : Heap α), copyInit fresh vs h = some (o, h') ∧ M.map Prod.snd = vs ∧ Rep h' o M ∧ Upd h h' [] (nodes o M) := by
  obtain ⟨f0, f1⟩ := hf h hb
  obtain ⟨h1, hh1⟩ : ∃ h1, h1 = put h (fresh h) (some ⟨fresh h, fresh h, none⟩) := ⟨_, rfl⟩
  have r1 : Rep h1 ⟨fresh h, 0⟩ ([] : List (Ptr × α)) := by
    refine ⟨⟨?_, by simp [ids], by simpa [ids] using f0.symm⟩, by simp, by rw [hh1]; simp [vl, put], rfl⟩
    show Path h1 [fresh h, fresh h]
    rw [Path, List.isChain_cons_cons]
    exact ⟨by rw [hh1]; simp [R, nxt, prv, put], List.IsChain.singleton _⟩
  have u1 : Upd h h1 [] [fresh h] := by
    refine ⟨fun q _ h2 => by rw [hh1]; unfold put; rw [if_neg (by simpa using h2)], by simp, by simpa using f1⟩
  obtain ⟨M, h', e', m', n', r', u'⟩ := initLoop_ok hf vs r1 (by rw [hh1]; exact bounded_put hb _ _)
  simp only [Nat.zero_add, List.nil_append] at r' u'
  refine ⟨⟨fresh h, vs.length⟩, M, h', ?_, m', r', u1.trans u'⟩
  unfold copyInit allocNode
  simp only
  rw [← hh1]
  show (initLoop fresh (fresh h) vs h1).bind _ = _
  rw [show initLoop fresh (fresh h) vs h1 = some h' from e']; rfl

end

end Verif.DList
