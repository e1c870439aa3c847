import Verif.RbTree
import Mathlib.Data.List.Nodup
import Mathlib.Data.List.Perm.Basic
import Mathlib.Tactic.Tauto
import Mathlib.Tactic.Ring
import Mathlib.Tactic.Linarith

/-!
# Trees in the heap

Shapes (`Shape`), what it means that the heap contains a shape below a header, and how the writes of rb_tree.h change it.
-/

namespace Verif.Rb

variable {α : Type}

/-- a binary tree with the addresses, colours and values of its nodes -/
inductive Shape (α : Type)
  | nil
  | node (a : Ptr) (red : Bool) (l : Shape α) (v : α) (r : Shape α)

namespace Shape

/-- the pointer to the tree -/
def ptr : Shape α → Ptr
  | nil => 0
  | node a _ _ _ _ => a

/-- addresses and values in order -/
def items : Shape α → List (Ptr × α)
  | nil => []
  | node a _ l v r => l.items ++ (a, v) :: r.items

/-- is the root red? -/
def isRed : Shape α → Bool
  | nil => false
  | node _ c _ _ _ => c

end Shape

/-- the addresses of a list of items -/
def addrs (l : List (Ptr × α)) : List Ptr := l.map (fun x => x.1)

/-- one step of the way from the root to a place: the node, the side on which the way goes on (`true`: left), and the other subtree -/
structure Frame (α : Type) where
  isL : Bool
  a : Ptr
  red : Bool
  v : α
  sib : Shape α

/-- put a tree into a frame -/
def Frame.fill (f : Frame α) (t : Shape α) : Shape α := if f.isL then .node f.a f.red t f.v f.sib else .node f.a f.red f.sib f.v t

/-- put a tree into a place; the innermost frame comes first -/
def plug : List (Frame α) → Shape α → Shape α
  | [], t => t
  | f :: ctx, t => plug ctx (f.fill t)

/-- the parent of the place -/
def parOf (hd : Ptr) : List (Frame α) → Ptr
  | [] => hd
  | f :: _ => f.a

/-- the root pointer of the whole tree when `p` is in the place -/
def rootP : List (Frame α) → Ptr → Ptr
  | [], p => p
  | f :: ctx, _ => rootP ctx f.a

/-- items before and after the place -/
def before : List (Frame α) → List (Ptr × α)
  | [] => []
  | f :: ctx => before ctx ++ (if f.isL then [] else f.sib.items ++ [(f.a, f.v)])
def after : List (Frame α) → List (Ptr × α)
  | [] => []
  | f :: ctx => (if f.isL then (f.a, f.v) :: f.sib.items else []) ++ after ctx

theorem plug_items (ctx : List (Frame α)) : ∀ t : Shape α, (plug ctx t).items = before ctx ++ t.items ++ after ctx := by
  induction ctx with
  | nil => intro t; simp [plug, before, after]
  | cons f ctx ih =>
    intro t
    rw [plug, ih]
    cases hf : f.isL <;> simp [Frame.fill, hf, Shape.items, before, after]

/-- the heap contains the tree `t` with parent `par` -/
def Rep (h : Heap α) (par : Ptr) : Shape α → Prop
  | .nil => True
  | .node a c l v r => h a = some ⟨par, l.ptr, r.ptr, c, some v⟩ ∧ Rep h a l ∧ Rep h a r

/-- the heap contains the frames, with `p` in the place, below the header `hd` with `leftmost` `lm` and `rightmost` `rm` -/
def RepC (h : Heap α) (hd lm rm : Ptr) : List (Frame α) → Ptr → Prop
  | [], p => h hd = some ⟨p, lm, rm, true, none⟩
  | f :: ctx, p => h f.a = some ⟨parOf hd ctx, if f.isL then p else f.sib.ptr, if f.isL then f.sib.ptr else p, f.red, some f.v⟩ ∧ Rep h f.a f.sib ∧ RepC h hd lm rm ctx f.a

/-- the heap contains the tree `t` in the place `ctx` below the header; all addresses are different and not null -/
structure S (h : Heap α) (hd lm rm : Ptr) (ctx : List (Frame α)) (t : Shape α) : Prop where
  tree : Rep h (parOf hd ctx) t
  place : RepC h hd lm rm ctx t.ptr
  nodup : (0 :: hd :: addrs (plug ctx t).items).Nodup
  null : h 0 = none

theorem Rep.congr {h h' : Heap α} : ∀ {t : Shape α} {par : Ptr}, (∀ a ∈ addrs t.items, h' a = h a) → Rep h par t → Rep h' par t := by
  intro t
  induction t with
  | nil => intro par _ _; trivial
  | node a c l v r ihl ihr =>
    intro par he hr
    obtain ⟨h1, h2, h3⟩ := hr
    refine ⟨?_, ihl (fun x hx => he x ?_) h2, ihr (fun x hx => he x ?_) h3⟩
    · rw [he a (by simp [Shape.items, addrs])]; exact h1
    · simp only [Shape.items, addrs, List.map_append, List.mem_append] at hx ⊢; exact Or.inl hx
    · simp only [Shape.items, addrs, List.map_append, List.map_cons, List.mem_append, List.mem_cons] at hx ⊢; exact Or.inr (Or.inr hx)

/-- the addresses of a place -/
def ctxAddrs : List (Frame α) → List Ptr
  | [] => []
  | f :: ctx => f.a :: (addrs f.sib.items ++ ctxAddrs ctx)

theorem RepC.congr {h h' : Heap α} {hd lm rm : Ptr} : ∀ {ctx : List (Frame α)} {p : Ptr}, h' hd = h hd → (∀ a ∈ ctxAddrs ctx, h' a = h a) → RepC h hd lm rm ctx p → RepC h' hd lm rm ctx p := by
  intro ctx
  induction ctx with
  | nil => intro p h0 _ hr; unfold RepC at hr ⊢; rw [h0]; exact hr
  | cons f ctx ih =>
    intro p h0 he hr
    obtain ⟨h1, h2, h3⟩ := hr
    refine ⟨?_, h2.congr (fun a ha => he a ?_), ih h0 (fun a ha => he a ?_) h3⟩
    · rw [he f.a (by simp [ctxAddrs])]; exact h1
    · simp [ctxAddrs, ha]
    · simp [ctxAddrs, ha]

theorem addrs_perm (ctx : List (Frame α)) : ∀ t : Shape α, (addrs (plug ctx t).items).Perm (addrs t.items ++ ctxAddrs ctx) := by
  induction ctx with
  | nil => intro t; simp [plug, ctxAddrs]
  | cons f ctx ih =>
    intro t
    rw [plug]
    refine (ih _).trans ?_
    rw [ctxAddrs]
    have : (addrs (f.fill t).items).Perm (addrs t.items ++ f.a :: addrs f.sib.items) := by
      cases hf : f.isL
      · simp only [Frame.fill, hf, Bool.false_eq_true, if_false, Shape.items, addrs, List.map_append, List.map_cons]
        exact (List.perm_append_comm (l₁ := List.map _ f.sib.items)).trans (by
          rw [List.cons_append]
          exact List.perm_middle.symm)
      · simp [Frame.fill, hf, Shape.items, addrs]
    have h2 := this.append_right (ctxAddrs ctx)
    simpa [List.append_assoc] using h2

/-- all the facts about addresses in one place -/
theorem S.sep {h : Heap α} {hd lm rm : Ptr} {ctx : List (Frame α)} {t : Shape α} (s : S h hd lm rm ctx t) : (0 :: hd :: (addrs t.items ++ ctxAddrs ctx)).Nodup :=
  (List.Perm.nodup_iff (((addrs_perm ctx t).cons hd).cons 0)).1 s.nodup

theorem fill_isL {f : Frame α} (hf : f.isL = true) (t : Shape α) : f.fill t = .node f.a f.red t f.v f.sib := by simp [Frame.fill, hf]
theorem fill_isR {f : Frame α} (hf : f.isL = false) (t : Shape α) : f.fill t = .node f.a f.red f.sib f.v t := by simp [Frame.fill, hf]

theorem fill_ptr (f : Frame α) (t : Shape α) : (f.fill t).ptr = f.a := by
  cases hf : f.isL <;> simp [Frame.fill, hf, Shape.ptr]

/-- moving the focus one node up or down -/
theorem S.focus {h : Heap α} {hd lm rm : Ptr} {f : Frame α} {ctx : List (Frame α)} {t : Shape α} : S h hd lm rm (f :: ctx) t ↔ S h hd lm rm ctx (f.fill t) := by
  constructor
  · intro s
    obtain ⟨h1, h2, h3⟩ := s.place
    refine ⟨?_, by rw [fill_ptr]; exact h3, s.nodup, s.null⟩
    have := s.tree
    cases hf : f.isL
    · rw [fill_isR hf]; rw [hf] at h1; exact ⟨h1, h2, this⟩
    · rw [fill_isL hf]; rw [hf] at h1; exact ⟨h1, this, h2⟩
  · intro s
    have ht := s.tree
    have hp := s.place
    rw [fill_ptr] at hp
    cases hf : f.isL
    · rw [fill_isR hf] at ht
      exact ⟨ht.2.2, ⟨by rw [hf]; exact ht.1, ht.2.1, hp⟩, s.nodup, s.null⟩
    · rw [fill_isL hf] at ht
      exact ⟨ht.2.1, ⟨by rw [hf]; exact ht.1, ht.2.2, hp⟩, s.nodup, s.null⟩

/-- focus on the whole tree -/
theorem S.whole {h : Heap α} {hd lm rm : Ptr} : ∀ {ctx : List (Frame α)} {t : Shape α}, S h hd lm rm ctx t ↔ S h hd lm rm [] (plug ctx t) := by
  intro ctx
  induction ctx with
  | nil => intro t; rfl
  | cons f ctx ih => intro t; rw [S.focus, ih]; rfl

/-- the focus goes into the left or right subtree -/
theorem S.left {h : Heap α} {hd lm rm : Ptr} {ctx : List (Frame α)} {a : Ptr} {c : Bool} {l r : Shape α} {v : α} : S h hd lm rm ctx (.node a c l v r) ↔ S h hd lm rm (⟨true, a, c, v, r⟩ :: ctx) l := by
  rw [S.focus]; rfl
theorem S.right {h : Heap α} {hd lm rm : Ptr} {ctx : List (Frame α)} {a : Ptr} {c : Bool} {l r : Shape α} {v : α} : S h hd lm rm ctx (.node a c l v r) ↔ S h hd lm rm (⟨false, a, c, v, l⟩ :: ctx) r := by
  rw [S.focus]; rfl

theorem RepC.header {h : Heap α} {hd lm rm : Ptr} : ∀ {ctx : List (Frame α)} {p : Ptr}, RepC h hd lm rm ctx p → h hd = some ⟨rootP ctx p, lm, rm, true, none⟩ := by
  intro ctx
  induction ctx with
  | nil => intro p hr; exact hr
  | cons f ctx ih => intro p hr; exact ih hr.2.2

theorem rootP_mem : ∀ (ctx : List (Frame α)) (f : Frame α) (p : Ptr), rootP (f :: ctx) p ∈ ctxAddrs (f :: ctx) := by
  intro ctx
  induction ctx with
  | nil => intro f p; simp [rootP, ctxAddrs]
  | cons g ctx ih =>
    intro f p
    have := ih g f.a
    rw [rootP, ctxAddrs]
    simp only [List.mem_cons, List.mem_append]
    exact Or.inr (Or.inr this)

/-- the pointer to the whole tree -/
theorem plug_ptr : ∀ (ctx : List (Frame α)) (t : Shape α), (plug ctx t).ptr = rootP ctx t.ptr := by
  intro ctx
  induction ctx with
  | nil => intro t; rfl
  | cons f ctx ih => intro t; rw [plug, ih, fill_ptr]; rfl

/-- `h'` differs from `h` at most at the given addresses -/
def Off (A : List Ptr) (h h' : Heap α) : Prop := ∀ q, q ∉ A → h' q = h q

theorem Off.trans {A : List Ptr} {h h' h'' : Heap α} (a : Off A h h') (b : Off A h' h'') : Off A h h'' := fun q hq => (b q hq).trans (a q hq)
theorem Off.refl (A : List Ptr) (h : Heap α) : Off A h h := fun _ _ => rfl

/-- the addresses of a tree below a header -/
def owned (hd : Ptr) (l : List (Ptr × α)) : List Ptr := hd :: addrs l

/-- replacing the tree in the place: what has to be shown -/
theorem S.change {h h' : Heap α} {hd lm rm : Ptr} {ctx : List (Frame α)} {t t' : Shape α} (s : S h hd lm rm ctx t) (hi : t'.items = t.items)
    (ht : Rep h' (parOf hd ctx) t') (hp : RepC h' hd lm rm ctx t'.ptr) (h0 : h' 0 = h 0) : S h' hd lm rm ctx t' :=
  ⟨ht, hp, by rw [plug_items, hi, ← plug_items]; exact s.nodup, by rw [h0]; exact s.null⟩

/-- changing the pointer in the place: at most the header or the innermost frame is written -/
theorem RepC.setPtr {h h' : Heap α} {hd lm rm : Ptr} {ctx : List (Frame α)} {p p' : Ptr} (hr : RepC h hd lm rm ctx p) (hhd : hd ∉ ctxAddrs ctx) (hnd : (ctxAddrs ctx).Nodup)
    (h1 : ∀ a ∈ ctxAddrs ctx, a ≠ parOf hd ctx → h' a = h a) (h2 : parOf hd ctx ≠ hd → h' hd = h hd)
    (h3 : h' (parOf hd ctx) = (h (parOf hd ctx)).map (fun c => match ctx with
      | [] => { c with parent := p' }
      | f :: _ => if f.isL then { c with left := p' } else { c with right := p' })) : RepC h' hd lm rm ctx p' := by
  cases ctx with
  | nil =>
    unfold RepC at hr ⊢
    simp only [parOf] at h3
    rw [h3, hr]; rfl
  | cons f ctx =>
    obtain ⟨a1, a2, a3⟩ := hr
    simp only [parOf] at h1 h2 h3
    simp only [ctxAddrs, List.mem_cons, List.mem_append, List.nodup_cons, not_or] at hhd hnd h1
    have hne : f.a ≠ hd := fun e => hhd.1 e.symm
    refine ⟨?_, a2.congr (fun a ha => h1 a (Or.inr (Or.inl ha)) (fun e => hnd.1.1 (e ▸ ha))), a3.congr (h2 hne) (fun a ha => h1 a (Or.inr (Or.inr ha)) (fun e => hnd.1.2 (e ▸ ha)))⟩
    rw [h3, a1]
    cases hf : f.isL <;> simp

end Verif.Rb
