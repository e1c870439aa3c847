import Verif.Fp

/-!
# C++ integer conversions

`int` is 32 bits.  Undefined behaviour (signed overflow, conversion of an
out-of-range floating value to `int`) is the outcome `none`.
-/

namespace Verif

/-- result of a signed `int` operation whose mathematical value is `z`; overflow is undefined. -/
def i32 (z : ℤ) : Option ℤ := if -2147483648 ≤ z ∧ z ≤ 2147483647 then some z else none

/-- C++ conversion `(int)q` of a double: truncation toward zero, undefined when out of range. -/
def toInt (q : ℚ) : Option ℤ := i32 (if 0 ≤ q then ⌊q⌋ else ⌈q⌉)

/-- `int2` — /repo/mylib/tool.h:10 (`(int)floor(v)`), also /repo/lunar/lunar_ssq.cpp:9. -/
def int2 (v : ℚ) : Option ℤ := i32 ⌊v⌋

theorem i32_some {z : ℤ} (h1 : -2147483648 ≤ z) (h2 : z ≤ 2147483647) : i32 z = some z := by
  simp [i32, h1, h2]

theorem int2_eq {v : ℚ} {k : ℤ} (h : ⌊v⌋ = k) (h1 : -2147483648 ≤ k) (h2 : k ≤ 2147483647) :
    int2 v = some k := by rw [int2, h, i32_some h1 h2]

theorem toInt_eq {v : ℚ} {k : ℤ} (hv : 0 ≤ v) (h : ⌊v⌋ = k) (h2 : k ≤ 2147483647) :
    toInt v = some k := by
  have : 0 ≤ k := by rw [← h]; exact Int.floor_nonneg.mpr hv
  rw [toInt, if_pos hv, h, i32_some (by omega) h2]

end Verif
