/-!
Model of `/repo/py/redrock/zwarning.py`: the ZWARN bit mask. Masks are natural numbers; python's `|` and `&` on
non-negative integers are `|||` and `&&&`.
-/
namespace Redrock
namespace ZW
/-- zwarning.py:16 -/ def SKY : Nat := 2^0
/-- zwarning.py:17 -/ def LITTLE_COVERAGE : Nat := 2^1
/-- zwarning.py:18 -/ def SMALL_DELTA_CHI2 : Nat := 2^2
/-- zwarning.py:19 -/ def NEGATIVE_MODEL : Nat := 2^3
/-- zwarning.py:20 -/ def MANY_OUTLIERS : Nat := 2^4
/-- zwarning.py:21 -/ def Z_FITLIMIT : Nat := 2^5
/-- zwarning.py:22 -/ def NEGATIVE_EMISSION : Nat := 2^6
/-- zwarning.py:23 -/ def UNPLUGGED : Nat := 2^7
/-- zwarning.py:24 -/ def BAD_TARGET : Nat := 2^8
/-- zwarning.py:25 -/ def NODATA : Nat := 2^9
/-- zwarning.py:26 -/ def BAD_MINFIT : Nat := 2^10
/-- zwarning.py:27 -/ def POORDATA : Nat := 2^11
/-- zwarning.py:53-57  `badfit_mask`. -/
def badfit : Nat := NEGATIVE_MODEL ||| MANY_OUTLIERS ||| Z_FITLIMIT ||| NEGATIVE_EMISSION ||| BAD_MINFIT
end ZW
end Redrock
