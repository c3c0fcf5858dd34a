import Verif.Ein.Ops2
import Verif.Wick.Delta
import Verif.Gen.Split

/-! Written by `/verif/tools/gen.py`. Checks of einsum programs. -/

set_option maxRecDepth 100000

namespace Verif.Cert

open Verif.Ein Verif.Ein.N


open Verif.Gen

def T4_lin_mat_cert_0 : List Nat := [1002417266959575579606226457657624404723899570699368290581872779829840635268935558914504,
  4539446397938,
  995134037180219780767040181557365942270255171279887231616242129361810105745087296463304,
  4539479952242,
  651851520203402529279011469606307999885692540589530882698408593804319074049041832955135410182,
  54065240567204848,
  159151212018113398598571634713971018054800584686433764424598483522869163818097656618827782,
  54065238419721202,
  90111994866966592,
  126123201847369792,
  1157241458401344,
  1719916567470144]

/-- Check T4_lin_mat. C83 -/
theorem T4_lin_mat : isZero kinds [] 82944
    (Wick.matX (Wick.braX 4) [(1/82944, [3], .fluct)] ++ (Prog.scale (-1) (Prog.cap 0 119 (linT3))))
    (T4_lin_mat_cert_0) = true := by decide +kernel

end Verif.Cert
