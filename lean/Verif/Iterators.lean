import Mathlib.Data.Int.Notation
import Mathlib.Data.Nat.Notation
/-!
# Iterators — /repo/mylib/mystl/iterator.h: `distance`, `advance`, `reverse_iterator`, and `rbegin`, `rend` of the containers

A sequence is a list; an iterator into it is the number of elements before it, the end is the length.  An iterator may not leave the sequence
and may not be read at the end: undefined behaviour (`none`).  A loop that would never end also gives `none`.  Differences are mathematical integers.
-/

namespace Verif.Iterators

/-- the categories which `distance` and `advance` tell apart; `forward` takes the way of `input` — iterator.h:14-18 -/
inductive Cat where
  | input
  | bidirectional
  | random

/-- `++it` -/
def inc (len i : ℕ) : Option ℕ := if i < len then some (i + 1) else none

/-- `--it` -/
def dec (i : ℕ) : Option ℕ := if 0 < i then some (i - 1) else none

/-- `it += n` of a random access iterator -/
def add (len i : ℕ) (n : ℤ) : Option ℕ := if 0 ≤ (i : ℤ) + n ∧ (i : ℤ) + n ≤ len then some ((i : ℤ) + n).toNat else none

/-- `*it` -/
def deref {α : Type} (l : List α) (i : ℕ) : Option α := l[i]?

/-- the loop of `distance`, with a bound on its steps — iterator.h:157-166 -/
def distLoop (len last : ℕ) : ℕ → ℕ → ℤ → Option ℤ
  | 0, _, _ => none
  | fuel + 1, first, n => if first ≠ last then do distLoop len last fuel (← inc len first) (n + 1) else some n

/-- `distance` — iterator.h:153-183; after `len + 1` steps the iterator has left the sequence -/
def distance (c : Cat) (len first last : ℕ) : Option ℤ :=
  match c with
  | .random => some ((last : ℤ) - first)
  | _ => distLoop len last (len + 1) first 0

/-- `while (n--) ++i;` — iterator.h:191-192, 200: for `n < 0` the loop goes on, out of the sequence -/
def upLoop (len : ℕ) : ℕ → ℕ → ℤ → Option ℕ
  | 0, _, _ => none
  | fuel + 1, i, n => if n ≠ 0 then do upLoop len fuel (← inc len i) (n - 1) else some i

/-- `while (n++) --i;` — iterator.h:202 -/
def downLoop : ℕ → ℕ → ℤ → Option ℕ
  | 0, _, _ => none
  | fuel + 1, i, n => if n ≠ 0 then do downLoop fuel (← dec i) (n + 1) else some i

/-- `advance` — iterator.h:187-216 -/
def advance (c : Cat) (len i : ℕ) (n : ℤ) : Option ℕ :=
  match c with
  | .input => upLoop len (len + 1) i n
  | .bidirectional => if n ≥ 0 then upLoop len (len + 1) i n else downLoop (len + 1) i n
  | .random => add len i n

/-! `reverse_iterator`: the member `current` — iterator.h:223-227 -/

/-- `rbegin()`: `reverse_iterator(end())` — vector.h:138-139, deque.h:313-314, list.h:315-316, rb_tree.h:785-786 -/
def rbegin {α : Type} (l : List α) : ℕ := l.length

/-- `rend()`: `reverse_iterator(begin())` — vector.h:142-143, deque.h:317-318, list.h:319-320, rb_tree.h:789-790 -/
def rend : ℕ := 0

/-- `operator*` — iterator.h:251-255 -/
def rderef {α : Type} (l : List α) (r : ℕ) : Option α := do deref l (← dec r)

/-- `++r` — iterator.h:262-266 -/
def rinc (r : ℕ) : Option ℕ := dec r

/-- `r++`: the value of the expression, and `r` afterwards — iterator.h:267-272 -/
def rpostInc (r : ℕ) : Option (ℕ × ℕ) := do some (r, ← dec r)

/-- `--r` — iterator.h:274-278 -/
def rdec (len r : ℕ) : Option ℕ := inc len r

/-- `r--` — iterator.h:279-284 -/
def rpostDec (len r : ℕ) : Option (ℕ × ℕ) := do some (r, ← inc len r)

/-- `r += n`, `r + n` — iterator.h:286-294 -/
def radd (len r : ℕ) (n : ℤ) : Option ℕ := add len r (-n)

/-- `r -= n`, `r - n` — iterator.h:295-303 -/
def rsub (len r : ℕ) (n : ℤ) : Option ℕ := add len r n

/-- `r[n]` — iterator.h:305-308 -/
def rindex {α : Type} (l : List α) (r : ℕ) (n : ℤ) : Option α := do rderef l (← radd l.length r n)

/-- `lhs - rhs` — iterator.h:311-318 -/
def rdiff (a b : ℕ) : ℤ := (b : ℤ) - a

/-- `==` — iterator.h:320-326 -/
def req (a b : ℕ) : Bool := a == b

/-- `<` — iterator.h:328-333 -/
def rlt (a b : ℕ) : Bool := decide (b < a)

/-- `!=` — iterator.h:335-340 -/
def rne (a b : ℕ) : Bool := !req a b

/-- `>` — iterator.h:342-347 -/
def rgt (a b : ℕ) : Bool := rlt b a

/-- `<=` — iterator.h:349-354 -/
def rle (a b : ℕ) : Bool := !rlt b a

/-- `>=` — iterator.h:356-361 -/
def rge (a b : ℕ) : Bool := !rlt a b

/-- `for (auto r = c.rbegin(); r != c.rend(); ++r) use(*r);` — the values used, with a bound on the steps -/
def readBack {α : Type} (l : List α) : ℕ → ℕ → Option (List α)
  | 0, _ => none
  | fuel + 1, r =>
    if rne r rend then do
      let v ← rderef l r
      let r ← rinc r
      let vs ← readBack l fuel r
      some (v :: vs)
    else some []

end Verif.Iterators
