import Mathlib.Analysis.Real.Sqrt

/-!
Model: the tables `GMatrix` and `MPRIME` of `solver_classes/GMAT_sphere.py`, all 121 entries each.

`none` is the missing `return` for an index above 10.  Decimals that round a simple fraction are
read as the fraction (`0.16666666666666666` is `1/6`).  The file was transcribed from the text of
the Python file by a script.
-/

namespace Verif.Model

/-- GMAT_sphere.py 10-52: `GMatrix`, entries with `i = 0`. -/
noncomputable def gMatrixRow0 (j : ℕ) (a b ap bp : ℝ) : Option ℝ :=
  match j with
  | 0 => some (
      (-(1 / 6)) * ((a ^ 2 + a * b + b ^ 2) * (ap - bp)) / (a - b))
  | 1 => some (
      (a + b) * (ap - bp) / (6 * Real.sqrt 2))
  | 2 => some (
      (a ^ 2 + 3 * a * b + b ^ 2) * (ap - bp) / (15 * Real.sqrt 2 * (a - b)))
  | 3 => some (
      (-(1 / 10)) * ((a + b) * (ap - bp)) / Real.sqrt 2)
  | 4 => some (
      (5 * a ^ 2 - 3 * a * b + 5 * b ^ 2) * (ap - bp) / (105 * Real.sqrt 2 * (a - b)))
  | 5 => some (
      (a + b) * ((-ap) + bp) / (42 * Real.sqrt 2))
  | 6 => some (
      (5 * a ^ 2 - a * b + 5 * b ^ 2) * (ap - bp) / (315 * Real.sqrt 2 * (a - b)))
  | 7 => some (
      (a + b) * ((-ap) + bp) / (90 * Real.sqrt 2))
  | 8 => some (
      (29 * a ^ 2 - 3 * a * b + 29 * b ^ 2) * (ap - bp) / (3465 * Real.sqrt 2 * (a - b)))
  | 9 => some (
      (a + b) * ((-ap) + bp) / (154 * Real.sqrt 2))
  | 10 => some (
      (47 * a ^ 2 - 3 * a * b + 47 * b ^ 2) * (ap - bp) / (9009 * Real.sqrt 2 * (a - b)))
  | _ => none

/-- GMAT_sphere.py 56-98: `GMatrix`, entries with `i = 1`. -/
noncomputable def gMatrixRow1 (j : ℕ) (a b ap bp : ℝ) : Option ℝ :=
  match j with
  | 0 => some (
      (4 * a * b * (ap + bp) + a ^ 2 * (7 * ap + bp) + b ^ 2 * (ap + 7 * bp)) / (6 * Real.sqrt 2
        * (a - b)))
  | 1 => some (
      ((-(b ^ 2 * (ap - 11 * bp))) + a ^ 2 * ((-11) * ap + bp) + 3 * a * b * ((-ap) + bp)) / (15
        * (a - b)))
  | 2 => some (
      (-(1 / 30)) * (12 * a * b * (ap + bp) + b ^ 2 * (7 * ap + bp) + a ^ 2 * (ap + 7 * bp)) /
        (a - b))
  | 3 => some (
      (9 * a * b * (ap - bp) + a ^ 2 * (13 * ap + bp) - b ^ 2 * (ap + 13 * bp)) / (35 * (a -
        b)))
  | 4 => some (
      (b ^ 2 * (19 * ap - 59 * bp) + 12 * a * b * (ap + bp) + a ^ 2 * ((-59) * ap + 19 * bp)) /
        (210 * (a - b)))
  | 5 => some (
      (b ^ 2 * (ap - 3 * bp) + a ^ 2 * (3 * ap - bp) + a * b * ((-ap) + bp)) / (21 * (a - b)))
  | 6 => some (
      (b ^ 2 * (13 * ap - 53 * bp) + 4 * a * b * (ap + bp) + a ^ 2 * ((-53) * ap + 13 * bp)) /
        (630 * (a - b)))
  | 7 => some (
      (b ^ 2 * (7 * ap - 29 * bp) + a ^ 2 * (29 * ap - 7 * bp) + 3 * a * b * ((-ap) + bp)) /
        (495 * (a - b)))
  | 8 => some (
      (b ^ 2 * (67 * ap - 299 * bp) + 12 * a * b * (ap + bp) + a ^ 2 * ((-299) * ap + 67 * bp))
        / (6930 * (a - b)))
  | 9 => some (
      (b ^ 2 * (37 * ap - 167 * bp) + a ^ 2 * (167 * ap - 37 * bp) + 9 * a * b * ((-ap) + bp)) /
        (5005 * (a - b)))
  | 10 => some (
      (b ^ 2 * (103 * ap - 479 * bp) + 12 * a * b * (ap + bp) + a ^ 2 * ((-479) * ap + 103 *
        bp)) / (18018 * (a - b)))
  | _ => none

/-- GMAT_sphere.py 102-144: `GMatrix`, entries with `i = 2`. -/
noncomputable def gMatrixRow2 (j : ℕ) (a b ap bp : ℝ) : Option ℝ :=
  match j with
  | 0 => some (
      (a * b * ((-ap) + bp) - a ^ 2 * (7 * ap + bp) + b ^ 2 * (ap + 7 * bp)) / (3 * Real.sqrt 2
        * (a - b)))
  | 1 => some (
      (16 * a * b * (ap + bp) + a ^ 2 * (57 * ap + 7 * bp) + b ^ 2 * (7 * ap + 57 * bp)) / (30 *
        (a - b)))
  | 2 => some (
      (11 * a * b * ((-ap) + bp) + a ^ 2 * ((-75) * ap + 19 * bp) + b ^ 2 * ((-19) * ap + 75 *
        bp)) / (105 * (a - b)))
  | 3 => some (
      (-(1 / 70)) * (48 * a * b * (ap + bp) + a ^ 2 * (35 * ap + 29 * bp) + b ^ 2 * (29 * ap +
        35 * bp)) / (a - b))
  | 4 => some (
      (119 * a * b * (ap - bp) + a ^ 2 * (281 * ap + 31 * bp) - b ^ 2 * (31 * ap + 281 * bp)) /
        (315 * (a - b)))
  | 5 => some (
      (b ^ 2 * (15 * ap - 79 * bp) + 16 * a * b * (ap + bp) + a ^ 2 * ((-79) * ap + 15 * bp)) /
        (126 * (a - b)))
  | 6 => some (
      (b ^ 2 * (221 * ap - 1189 * bp) + a ^ 2 * (1189 * ap - 221 * bp) + 299 * a * b * ((-ap) +
        bp)) / (3465 * (a - b)))
  | 7 => some (
      (b ^ 2 * (23 * ap - 215 * bp) + 16 * a * b * (ap + bp) + a ^ 2 * ((-215) * ap + 23 * bp))
        / (990 * (a - b)))
  | 8 => some (
      (b ^ 2 * (711 * ap - 7055 * bp) + a ^ 2 * (7055 * ap - 711 * bp) + 551 * a * b * ((-ap) +
        bp)) / (45045 * (a - b)))
  | 9 => some (
      (b ^ 2 * (101 * ap - 1189 * bp) + 48 * a * b * (ap + bp) + a ^ 2 * ((-1189) * ap + 101 *
        bp)) / (10010 * (a - b)))
  | 10 => some (
      (b ^ 2 * (69 * ap - 845 * bp) + a ^ 2 * (845 * ap - 69 * bp) + 35 * a * b * ((-ap) + bp))
        / (9009 * (a - b)))
  | _ => none

/-- GMAT_sphere.py 148-190: `GMatrix`, entries with `i = 3`. -/
noncomputable def gMatrixRow3 (j : ℕ) (a b ap bp : ℝ) : Option ℝ :=
  match j with
  | 0 => some (
      ((-(b ^ 2 * (ap - 25 * bp))) + a ^ 2 * (25 * ap - bp) - 4 * a * b * (ap + bp)) / (10 *
        Real.sqrt 2 * (a - b)))
  | 1 => some (
      (a * b * ((-ap) + bp) - a ^ 2 * (13 * ap + bp) + b ^ 2 * (ap + 13 * bp)) / (5 * (a - b)))
  | 2 => some (
      (68 * a * b * (ap + bp) + a ^ 2 * (155 * ap + 29 * bp) + b ^ 2 * (29 * ap + 155 * bp)) /
        (70 * (a - b)))
  | 3 => some (
      (47 * a * b * ((-ap) + bp) + a ^ 2 * ((-215) * ap + 53 * bp) + b ^ 2 * ((-53) * ap + 215 *
        bp)) / (315 * (a - b)))
  | 4 => some (
      (-(1 / 630)) * (636 * a * b * (ap + bp) + a ^ 2 * (617 * ap + 367 * bp) + b ^ 2 * (367 *
        ap + 617 * bp)) / (a - b))
  | 5 => some (
      (351 * a * b * (ap - bp) + a ^ 2 * (1007 * ap + 115 * bp) - b ^ 2 * (115 * ap + 1007 *
        bp)) / (693 * (a - b)))
  | 6 => some (
      (b ^ 2 * (349 * ap - 2341 * bp) + 452 * a * b * (ap + bp) + a ^ 2 * ((-2341) * ap + 349 *
        bp)) / (2310 * (a - b)))
  | 7 => some (
      (b ^ 2 * (527 * ap - 3725 * bp) + a ^ 2 * (3725 * ap - 527 * bp) + 807 * a * b * ((-ap) +
        bp)) / (6435 * (a - b)))
  | 8 => some (
      (b ^ 2 * (2447 * ap - 34295 * bp) + 2364 * a * b * (ap + bp) + a ^ 2 * ((-34295) * ap +
        2447 * bp)) / (90090 * (a - b)))
  | 9 => some (
      (b ^ 2 * (275 * ap - 4217 * bp) + a ^ 2 * (4217 * ap - 275 * bp) + 283 * a * b * ((-ap) +
        bp)) / (15015 * (a - b)))
  | 10 => some (
      (b ^ 2 * (1003 * ap - 19555 * bp) + 732 * a * b * (ap + bp) + a ^ 2 * ((-19555) * ap +
        1003 * bp)) / (90090 * (a - b)))
  | _ => none

/-- GMAT_sphere.py 194-236: `GMatrix`, entries with `i = 4`. -/
noncomputable def gMatrixRow4 (j : ℕ) (a b ap bp : ℝ) : Option ℝ :=
  match j with
  | 0 => some (
      (29 * a * b * (ap - bp) + a ^ 2 * ((-235) * ap + 11 * bp) + b ^ 2 * ((-11) * ap + 235 *
        bp)) / (105 * Real.sqrt 2 * (a - b)))
  | 1 => some (
      (a ^ 2 * (531 * ap - 19 * bp) - 64 * a * b * (ap + bp) + b ^ 2 * ((-19) * ap + 531 * bp))
        / (210 * (a - b)))
  | 2 => some (
      (43 * a * b * ((-ap) + bp) - a ^ 2 * (321 * ap + 31 * bp) + b ^ 2 * (31 * ap + 321 * bp))
        / (105 * (a - b)))
  | 3 => some (
      (832 * a * b * (ap + bp) + a ^ 2 * (1681 * ap + 367 * bp) + b ^ 2 * (367 * ap + 1681 *
        bp)) / (630 * (a - b)))
  | 4 => some (
      (547 * a * b * ((-ap) + bp) + a ^ 2 * ((-2339) * ap + 579 * bp) + b ^ 2 * ((-579) * ap +
        2339 * bp)) / (3465 * (a - b)))
  | 5 => some (
      (-(1 / 1386)) * (1856 * a * b * (ap + bp) + a ^ 2 * (2033 * ap + 1039 * bp) + b ^ 2 *
        (1039 * ap + 2033 * bp)) / (a - b))
  | 6 => some (
      (4103 * a * b * (ap - bp) + a ^ 2 * (13061 * ap + 1499 * bp) - b ^ 2 * (1499 * ap + 13061
        * bp)) / (6435 * (a - b)))
  | 7 => some (
      (b ^ 2 * (2367 * ap - 18239 * bp) + 3392 * a * b * (ap + bp) + a ^ 2 * ((-18239) * ap +
        2367 * bp)) / (12870 * (a - b)))
  | 8 => some (
      (b ^ 2 * (647 * ap - 5351 * bp) + a ^ 2 * (5351 * ap - 647 * bp) - 1057 * a * b * (ap -
        bp)) / (6435 * (a - b)))
  | 9 => some (
      (b ^ 2 * (947 * ap - 16819 * bp) + 1088 * a * b * (ap + bp) + a ^ 2 * ((-16819) * ap + 947
        * bp)) / (30030 * (a - b)))
  | 10 => some (
      (b ^ 2 * (16211 * ap - 321395 * bp) + a ^ 2 * (321395 * ap - 16211 * bp) - 19519 * a * b *
        (ap - bp)) / (765765 * (a - b)))
  | _ => none

/-- GMAT_sphere.py 240-282: `GMatrix`, entries with `i = 5`. -/
noncomputable def gMatrixRow5 (j : ℕ) (a b ap bp : ℝ) : Option ℝ :=
  match j with
  | 0 => some (
      ((-(b ^ 2 * (ap - 89 * bp))) + a ^ 2 * (89 * ap - bp) - 4 * a * b * (ap + bp)) / (42 *
        Real.sqrt 2 * (a - b)))
  | 1 => some (
      (13 * a * b * (ap - bp) + a ^ 2 * ((-143) * ap + 5 * bp) + b ^ 2 * ((-5) * ap + 143 * bp))
        / (63 * (a - b)))
  | 2 => some (
      (a ^ 2 * (359 * ap - 15 * bp) - 44 * a * b * (ap + bp) + b ^ 2 * ((-15) * ap + 359 * bp))
        / (126 * (a - b)))
  | 3 => some (
      (35 * a * b * ((-ap) + bp) - a ^ 2 * (227 * ap + 23 * bp) + b ^ 2 * (23 * ap + 227 * bp))
        / (63 * (a - b)))
  | 4 => some (
      (2300 * a * b * (ap + bp) + a ^ 2 * (4361 * ap + 1039 * bp) + b ^ 2 * (1039 * ap + 4361 *
        bp)) / (1386 * (a - b)))
  | 5 => some (
      ((-1453) * a * b * (ap - bp) + a ^ 2 * ((-6053) * ap + 1503 * bp) + b ^ 2 * ((-1503) * ap
        + 6053 * bp)) / (9009 * (a - b)))
  | 6 => some (
      (-(1 / 2574)) * (4300 * a * b * (ap + bp) + a ^ 2 * (5041 * ap + 2359 * bp) + b ^ 2 *
        (2359 * ap + 5041 * bp)) / (a - b))
  | 7 => some (
      (1651 * a * b * (ap - bp) + a ^ 2 * (5607 * ap + 643 * bp) - b ^ 2 * (643 * ap + 5607 *
        bp)) / (2145 * (a - b)))
  | 8 => some (
      (b ^ 2 * (931 * ap - 7851 * bp) + 1420 * a * b * (ap + bp) + a ^ 2 * ((-7851) * ap + 931 *
        bp)) / (4290 * (a - b)))
  | 9 => some (
      (5 * b ^ 2 * (6095 * ap - 55837 * bp) + 5 * a ^ 2 * (55837 * ap - 6095 * bp) - 51787 * a *
        b * (ap - bp)) / (255255 * (a - b)))
  | 10 => some (
      (b ^ 2 * (335 * ap - 6951 * bp) + 428 * a * b * (ap + bp) + a ^ 2 * ((-6951) * ap + 335 *
        bp)) / (9282 * (a - b)))
  | _ => none

/-- GMAT_sphere.py 286-328: `GMatrix`, entries with `i = 6`. -/
noncomputable def gMatrixRow6 (j : ℕ) (a b ap bp : ℝ) : Option ℝ :=
  match j with
  | 0 => some (
      (23 * a * b * (ap - bp) + a ^ 2 * ((-655) * ap + 7 * bp) + b ^ 2 * ((-7) * ap + 655 * bp))
        / (315 * Real.sqrt 2 * (a - b)))
  | 1 => some (
      (a ^ 2 * (1357 * ap - 13 * bp) - 48 * a * b * (ap + bp) + b ^ 2 * ((-13) * ap + 1357 *
        bp)) / (630 * (a - b)))
  | 2 => some (
      (789 * a * b * (ap - bp) + a ^ 2 * ((-8507) * ap + 323 * bp) + b ^ 2 * ((-323) * ap + 8507
        * bp)) / (3465 * (a - b)))
  | 3 => some (
      (a ^ 2 * (7453 * ap - 349 * bp) - 944 * a * b * (ap + bp) + b ^ 2 * ((-349) * ap + 7453 *
        bp)) / (2310 * (a - b)))
  | 4 => some (
      ((-2403) * a * b * (ap - bp) - a ^ 2 * (14461 * ap + 1499 * bp) + b ^ 2 * (1499 * ap +
        14461 * bp)) / (3465 * (a - b)))
  | 5 => some (
      (5136 * a * b * (ap + bp) + a ^ 2 * (9353 * ap + 2359 * bp) + b ^ 2 * (2359 * ap + 9353 *
        bp)) / (2574 * (a - b)))
  | 6 => some (
      ((-1049) * a * b * (ap - bp) + a ^ 2 * ((-4313) * ap + 1073 * bp) + b ^ 2 * ((-1073) * ap
        + 4313 * bp)) / (6435 * (a - b)))
  | 7 => some (
      (-(1 / 1430)) * (2864 * a * b * (ap + bp) + a ^ 2 * (3507 * ap + 1549 * bp) + b ^ 2 *
        (1549 * ap + 3507 * bp)) / (a - b))
  | 8 => some (
      (997 * a * b * (ap - bp) + a ^ 2 * (3539 * ap + 405 * bp) - b ^ 2 * (405 * ap + 3539 *
        bp)) / (1105 * (a - b)))
  | 9 => some (
      (b ^ 2 * (553 * ap - 4969 * bp) + 880 * a * b * (ap + bp) + a ^ 2 * ((-4969) * ap + 553 *
        bp)) / (2210 * (a - b)))
  | 10 => some (
      (b ^ 2 * (20329 * ap - 200145 * bp) + a ^ 2 * (200145 * ap - 20329 * bp) - 35471 * a * b *
        (ap - bp)) / (146965 * (a - b)))
  | _ => none

/-- GMAT_sphere.py 332-374: `GMatrix`, entries with `i = 7`. -/
noncomputable def gMatrixRow7 (j : ℕ) (a b ap bp : ℝ) : Option ℝ :=
  match j with
  | 0 => some (
      ((-(b ^ 2 * (ap - 185 * bp))) + a ^ 2 * (185 * ap - bp) - 4 * a * b * (ap + bp)) / (90 *
        Real.sqrt 2 * (a - b)))
  | 1 => some (
      (29 * a * b * (ap - bp) + a ^ 2 * ((-1043) * ap + 9 * bp) + b ^ 2 * ((-9) * ap + 1043 *
        bp)) / (495 * (a - b)))
  | 2 => some (
      (a ^ 2 * (2255 * ap - 23 * bp) - 76 * a * b * (ap + bp) + b ^ 2 * ((-23) * ap + 2255 *
        bp)) / (990 * (a - b)))
  | 3 => some (
      (1673 * a * b * (ap - bp) + a ^ 2 * ((-17275) * ap + 713 * bp) + b ^ 2 * ((-713) * ap +
        17275 * bp)) / (6435 * (a - b)))
  | 4 => some (
      (a ^ 2 * (46663 * ap - 2367 * bp) - 6076 * a * b * (ap + bp) + b ^ 2 * ((-2367) * ap +
        46663 * bp)) / (12870 * (a - b)))
  | 5 => some (
      ((-1067) * a * b * (ap - bp) - a ^ 2 * (6119 * ap + 643 * bp) + b ^ 2 * (643 * ap + 6119 *
        bp)) / (1287 * (a - b)))
  | 6 => some (
      (3332 * a * b * (ap + bp) + a ^ 2 * (5899 * ap + 1549 * bp) + b ^ 2 * (1549 * ap + 5899 *
        bp)) / (1430 * (a - b)))
  | 7 => some (
      ((-5981) * a * b * (ap - bp) + a ^ 2 * ((-24405) * ap + 6079 * bp) + b ^ 2 * ((-6079) * ap
        + 24405 * bp)) / (36465 * (a - b)))
  | 8 => some (
      (-(1 / 6630)) * (15484 * a * b * (ap + bp) + a ^ 2 * (19545 * ap + 8287 * bp) + b ^ 2 *
        (8287 * ap + 19545 * bp)) / (a - b))
  | 9 => some (
      (5015 * a * b * (ap - bp) + a ^ 2 * (18383 * ap + 2099 * bp) - b ^ 2 * (2099 * ap + 18383
        * bp)) / (4845 * (a - b)))
  | 10 => some (
      (b ^ 2 * (2747 * ap - 25875 * bp) + 4508 * a * b * (ap + bp) + a ^ 2 * ((-25875) * ap +
        2747 * bp)) / (9690 * (a - b)))
  | _ => none

/-- GMAT_sphere.py 378-420: `GMatrix`, entries with `i = 8`. -/
noncomputable def gMatrixRow8 (j : ℕ) (a b ap bp : ℝ) : Option ℝ :=
  match j with
  | 0 => some (
      (25 * a * b * (ap - bp) + a ^ 2 * ((-1415) * ap + 7 * bp) + b ^ 2 * ((-7) * ap + 1415 *
        bp)) / (693 * Real.sqrt 2 * (a - b)))
  | 1 => some (
      (a ^ 2 * (14403 * ap - 67 * bp) - 256 * a * b * (ap + bp) + b ^ 2 * ((-67) * ap + 14403 *
        bp)) / (6930 * (a - b)))
  | 2 => some (
      (2609 * a * b * (ap - bp) + a ^ 2 * ((-99045) * ap + 869 * bp) + b ^ 2 * ((-869) * ap +
        99045 * bp)) / (45045 * (a - b)))
  | 3 => some (
      (-(1 / 90090)) * (b ^ 2 * (2447 * ap - 219535 * bp) + 7424 * a * b * (ap + bp) + a ^ 2 *
        ((-219535) * ap + 2447 * bp)) / (a - b))
  | 4 => some (
      (4435 * a * b * (ap - bp) + a ^ 2 * ((-44053) * ap + 1941 * bp) + b ^ 2 * ((-1941) * ap +
        44053 * bp)) / (15015 * (a - b)))
  | 5 => some (
      (a ^ 2 * (17315 * ap - 931 * bp) - 2304 * a * b * (ap + bp) + b ^ 2 * ((-931) * ap + 17315
        * bp)) / (4290 * (a - b)))
  | 6 => some (
      (689 * a * b * ((-ap) + bp) - 3 * a ^ 2 * (1273 * ap + 135 * bp) + 3 * b ^ 2 * (135 * ap +
        1273 * bp)) / (715 * (a - b)))
  | 7 => some (
      (17664 * a * b * (ap + bp) + a ^ 2 * (30625 * ap + 8287 * bp) + b ^ 2 * (8287 * ap + 30625
        * bp)) / (6630 * (a - b)))
  | 8 => some (
      ((-10371) * a * b * (ap - bp) + a ^ 2 * ((-42115) * ap + 10499 * bp) + b ^ 2 * ((-10499) *
        ap + 42115 * bp)) / (62985 * (a - b)))
  | 9 => some (
      (-(1 / 9690)) * (25856 * a * b * (ap + bp) + a ^ 2 * (33377 * ap + 13727 * bp) + b ^ 2 *
        (13727 * ap + 33377 * bp)) / (a - b))
  | 10 => some (
      (7923 * a * b * (ap - bp) + a ^ 2 * (29761 * ap + 3391 * bp) - b ^ 2 * (3391 * ap + 29761
        * bp)) / (6783 * (a - b)))
  | _ => none

/-- GMAT_sphere.py 424-466: `GMatrix`, entries with `i = 9`. -/
noncomputable def gMatrixRow9 (j : ℕ) (a b ap bp : ℝ) : Option ℝ :=
  match j with
  | 0 => some (
      ((-(b ^ 2 * (ap - 313 * bp))) + a ^ 2 * (313 * ap - bp) - 4 * a * b * (ap + bp)) / (154 *
        Real.sqrt 2 * (a - b)))
  | 1 => some (
      (151 * a * b * (ap - bp) + a ^ 2 * ((-10313) * ap + 43 * bp) + b ^ 2 * ((-43) * ap + 10313
        * bp)) / (5005 * (a - b)))
  | 2 => some (
      (a ^ 2 * (21517 * ap - 101 * bp) - 356 * a * b * (ap + bp) + b ^ 2 * ((-101) * ap + 21517
        * bp)) / (10010 * (a - b)))
  | 3 => some (
      (917 * a * b * (ap - bp) + a ^ 2 * ((-34831) * ap + 325 * bp) + b ^ 2 * ((-325) * ap +
        34831 * bp)) / (15015 * (a - b)))
  | 4 => some (
      (a ^ 2 * (78491 * ap - 947 * bp) - 2700 * a * b * (ap + bp) + b ^ 2 * ((-947) * ap + 78491
        * bp)) / (30030 * (a - b)))
  | 5 => some (
      (84741 * a * b * (ap - bp) + a ^ 2 * ((-815335) * ap + 37789 * bp) + b ^ 2 * ((-37789) *
        ap + 815335 * bp)) / (255255 * (a - b)))
  | 6 => some (
      (a ^ 2 * (9841 * ap - 553 * bp) - 1332 * a * b * (ap + bp) + b ^ 2 * ((-553) * ap + 9841 *
        bp)) / (2210 * (a - b)))
  | 7 => some (
      ((-3639) * a * b * (ap - bp) - a ^ 2 * (19663 * ap + 2099 * bp) + b ^ 2 * (2099 * ap +
        19663 * bp)) / (3315 * (a - b)))
  | 8 => some (
      (29052 * a * b * (ap + bp) + a ^ 2 * (49561 * ap + 13727 * bp) + b ^ 2 * (13727 * ap +
        49561 * bp)) / (9690 * (a - b)))
  | 9 => some (
      ((-5599) * a * b * (ap - bp) + a ^ 2 * ((-22663) * ap + 5653 * bp) + b ^ 2 * ((-5653) * ap
        + 22663 * bp)) / (33915 * (a - b)))
  | 10 => some (
      (-(1 / 13566)) * (40716 * a * b * (ap + bp) + a ^ 2 * (53473 * ap + 21479 * bp) + b ^ 2 *
        (21479 * ap + 53473 * bp)) / (a - b))
  | _ => none

/-- GMAT_sphere.py 470-512: `GMatrix`, entries with `i = 10`. -/
noncomputable def gMatrixRow10 (j : ℕ) (a b ap bp : ℝ) : Option ℝ :=
  match j with
  | 0 => some (
      (197 * a * b * (ap - bp) + a ^ 2 * ((-18253) * ap + 53 * bp) + b ^ 2 * ((-53) * ap + 18253
        * bp)) / (9009 * Real.sqrt 2 * (a - b)))
  | 1 => some (
      (a ^ 2 * (36903 * ap - 103 * bp) - 400 * a * b * (ap + bp) + b ^ 2 * ((-103) * ap + 36903
        * bp)) / (18018 * (a - b)))
  | 2 => some (
      (1297 * a * b * (ap - bp) + a ^ 2 * ((-95391) * ap + 391 * bp) + b ^ 2 * ((-391) * ap +
        95391 * bp)) / (45045 * (a - b)))
  | 3 => some (
      (-(1 / 90090)) * (17 * b ^ 2 * (59 * ap - 11899 * bp) + 3280 * a * b * (ap + bp) + 17 * a
        ^ 2 * ((-11899) * ap + 59 * bp)) / (a - b))
  | 4 => some (
      (16771 * a * b * (ap - bp) + a ^ 2 * ((-627075) * ap + 6235 * bp) + 5 * b ^ 2 * ((-1247) *
        ap + 125415 * bp)) / (255255 * (a - b)))
  | 5 => some (
      (a ^ 2 * (25999 * ap - 335 * bp) - 912 * a * b * (ap + bp) + b ^ 2 * ((-335) * ap + 25999
        * bp)) / (9282 * (a - b)))
  | 6 => some (
      (7751 * a * b * (ap - bp) + a ^ 2 * ((-72665) * ap + 3505 * bp) + 5 * b ^ 2 * ((-701) * ap
        + 14533 * bp)) / (20995 * (a - b)))
  | 7 => some (
      (a ^ 2 * (47227 * ap - 2747 * bp) - 6480 * a * b * (ap + bp) + b ^ 2 * ((-2747) * ap +
        47227 * bp)) / (9690 * (a - b)))
  | 8 => some (
      ((-5967) * a * b * (ap - bp) - a ^ 2 * (31609 * ap + 3391 * bp) + b ^ 2 * (3391 * ap +
        31609 * bp)) / (4845 * (a - b)))
  | 9 => some (
      (45200 * a * b * (ap + bp) + a ^ 2 * (76121 * ap + 21479 * bp) + b ^ 2 * (21479 * ap +
        76121 * bp)) / (13566 * (a - b)))
  | 10 => some (
      ((-25803) * a * b * (ap - bp) + a ^ 2 * ((-104203) * ap + 26003 * bp) + b ^ 2 * ((-26003)
        * ap + 104203 * bp)) / (156009 * (a - b)))
  | _ => none

/-- GMAT_sphere.py 8-512 `GMatrix(i, j, a, b, ap, bp)`. -/
noncomputable def gMatrix (i j : ℕ) (a b ap bp : ℝ) : Option ℝ :=
  match i with
  | 0 => gMatrixRow0 j a b ap bp
  | 1 => gMatrixRow1 j a b ap bp
  | 2 => gMatrixRow2 j a b ap bp
  | 3 => gMatrixRow3 j a b ap bp
  | 4 => gMatrixRow4 j a b ap bp
  | 5 => gMatrixRow5 j a b ap bp
  | 6 => gMatrixRow6 j a b ap bp
  | 7 => gMatrixRow7 j a b ap bp
  | 8 => gMatrixRow8 j a b ap bp
  | 9 => gMatrixRow9 j a b ap bp
  | 10 => gMatrixRow10 j a b ap bp
  | _ => none

/-- GMAT_sphere.py 516-549: `MPRIME`, entries with `i = 0`. -/
noncomputable def mPrimeRow0 (j : ℕ) (a b ap bp : ℝ) : Option ℝ :=
  match j with
  | 0 => some (
      (a * (2 * ap + bp) + b * (ap + 2 * bp)) / 3)
  | 1 => some (
      Real.sqrt 2 * ((-(a * ap)) + b * bp) / 3)
  | 2 => some (
      (-(1 / 15)) * (Real.sqrt 2 * (2 * a * ap + 3 * ap * b + 3 * a * bp + 2 * b * bp)))
  | 3 => some (
      Real.sqrt 2 * (a * ap - b * bp) / 5)
  | 4 => some (
      Real.sqrt 2 * ((-10) * a * ap + 3 * ap * b + 3 * a * bp - 10 * b * bp) / 105)
  | 5 => some (
      Real.sqrt 2 * (a * ap - b * bp) / 21)
  | 6 => some (
      Real.sqrt 2 * (b * (ap - 10 * bp) + a * ((-10) * ap + bp)) / 315)
  | 7 => some (
      Real.sqrt 2 * (a * ap - b * bp) / 45)
  | 8 => some (
      Real.sqrt 2 * ((-58) * a * ap + 3 * ap * b + 3 * a * bp - 58 * b * bp) / 3465)
  | 9 => some (
      Real.sqrt 2 * (a * ap - b * bp) / 77)
  | 10 => some (
      Real.sqrt 2 * ((-94) * a * ap + 3 * ap * b + 3 * a * bp - 94 * b * bp) / 9009)
  | _ => none

/-- GMAT_sphere.py 553-595: `MPRIME`, entries with `i = 1`. -/
noncomputable def mPrimeRow1 (j : ℕ) (a b ap bp : ℝ) : Option ℝ :=
  match j with
  | 0 => some (
      Real.sqrt 2 * ((-(a * ap)) + b * bp) / 3)
  | 1 => some (
      2 * (a * (4 * ap + bp) + b * (ap + 4 * bp)) / 15)
  | 2 => some (
      (-2) * (a * ap - b * bp) / 15)
  | 3 => some (
      (-2) * (4 * a * ap + 3 * ap * b + 3 * a * bp + 4 * b * bp) / 35)
  | 4 => some (
      26 * (a * ap - b * bp) / 105)
  | 5 => some (
      (-2) * (4 * a * ap - ap * b - a * bp + 4 * b * bp) / 63)
  | 6 => some (
      22 * (a * ap - b * bp) / 315)
  | 7 => some (
      (-2) * (12 * a * ap - ap * b - a * bp + 12 * b * bp) / 495)
  | 8 => some (
      122 * (a * ap - b * bp) / 3465)
  | 9 => some (
      (-2) * (68 * a * ap - 3 * ap * b - 3 * a * bp + 68 * b * bp) / 5005)
  | 10 => some (
      194 * (a * ap - b * bp) / 9009)
  | _ => none

/-- GMAT_sphere.py 599-641: `MPRIME`, entries with `i = 2`. -/
noncomputable def mPrimeRow2 (j : ℕ) (a b ap bp : ℝ) : Option ℝ :=
  match j with
  | 0 => some (
      (-(1 / 15)) * (Real.sqrt 2 * (2 * a * ap + 3 * ap * b + 3 * a * bp + 2 * b * bp)))
  | 1 => some (
      (-2) * (a * ap - b * bp) / 15)
  | 2 => some (
      2 * (30 * a * ap + 19 * ap * b + 19 * a * bp + 30 * b * bp) / 105)
  | 3 => some (
      2 * ((-(a * ap)) + b * bp) / 7)
  | 4 => some (
      (-2) * (26 * a * ap + 31 * ap * b + 31 * a * bp + 26 * b * bp) / 315)
  | 5 => some (
      2 * (a * ap - b * bp) / 9)
  | 6 => some (
      (-2) * (194 * a * ap - 51 * ap * b - 51 * a * bp + 194 * b * bp) / 3465)
  | 7 => some (
      2 * (a * ap - b * bp) / 33)
  | 8 => some (
      (-2) * (950 * a * ap - 79 * ap * b - 79 * a * bp + 950 * b * bp) / 45045)
  | 9 => some (
      2 * (a * ap - b * bp) / 65)
  | 10 => some (
      (-2) * (538 * a * ap - 23 * ap * b - 23 * a * bp + 538 * b * bp) / 45045)
  | _ => none

/-- GMAT_sphere.py 645-687: `MPRIME`, entries with `i = 3`. -/
noncomputable def mPrimeRow3 (j : ℕ) (a b ap bp : ℝ) : Option ℝ :=
  match j with
  | 0 => some (
      Real.sqrt 2 * (a * ap - b * bp) / 5)
  | 1 => some (
      (-2) * (4 * a * ap + 3 * ap * b + 3 * a * bp + 4 * b * bp) / 35)
  | 2 => some (
      2 * ((-(a * ap)) + b * bp) / 7)
  | 3 => some (
      2 * (100 * a * ap + 53 * ap * b + 53 * a * bp + 100 * b * bp) / 315)
  | 4 => some (
      (-14) * (a * ap - b * bp) / 45)
  | 5 => some (
      (-2) * (52 * a * ap + 69 * ap * b + 69 * a * bp + 52 * b * bp) / 693)
  | 6 => some (
      82 * (a * ap - b * bp) / 385)
  | 7 => some (
      (-2) * (340 * a * ap - 93 * ap * b - 93 * a * bp + 340 * b * bp) / 6435)
  | 8 => some (
      46 * (a * ap - b * bp) / 819)
  | 9 => some (
      ((-584) * a * ap + 50 * ap * b + 50 * a * bp - 584 * b * bp) / 15015)
  | 10 => some (
      14 * (a * ap - b * bp) / 495)
  | _ => none

/-- GMAT_sphere.py 691-733: `MPRIME`, entries with `i = 4`. -/
noncomputable def mPrimeRow4 (j : ℕ) (a b ap bp : ℝ) : Option ℝ :=
  match j with
  | 0 => some (
      Real.sqrt 2 * ((-10) * a * ap + 3 * ap * b + 3 * a * bp - 10 * b * bp) / 105)
  | 1 => some (
      26 * (a * ap - b * bp) / 105)
  | 2 => some (
      (-2) * (26 * a * ap + 31 * ap * b + 31 * a * bp + 26 * b * bp) / 315)
  | 3 => some (
      (-14) * (a * ap - b * bp) / 45)
  | 4 => some (
      2 * (1126 * a * ap + 579 * ap * b + 579 * a * bp + 1126 * b * bp) / 3465)
  | 5 => some (
      (-74) * (a * ap - b * bp) / 231)
  | 6 => some (
      (-2) * (3238 * a * ap + 4497 * ap * b + 4497 * a * bp + 3238 * b * bp) / 45045)
  | 7 => some (
      122 * (a * ap - b * bp) / 585)
  | 8 => some (
      (-2) * (2306 * a * ap - 647 * ap * b - 647 * a * bp + 2306 * b * bp) / 45045)
  | 9 => some (
      62 * (a * ap - b * bp) / 1155)
  | 10 => some (
      (-2) * (14150 * a * ap - 1247 * ap * b - 1247 * a * bp + 14150 * b * bp) / 765765)
  | _ => none

/-- GMAT_sphere.py 737-779: `MPRIME`, entries with `i = 5`. -/
noncomputable def mPrimeRow5 (j : ℕ) (a b ap bp : ℝ) : Option ℝ :=
  match j with
  | 0 => some (
      Real.sqrt 2 * (a * ap - b * bp) / 21)
  | 1 => some (
      (-2) * (4 * a * ap - ap * b - a * bp + 4 * b * bp) / 63)
  | 2 => some (
      2 * (a * ap - b * bp) / 9)
  | 3 => some (
      (-2) * (52 * a * ap + 69 * ap * b + 69 * a * bp + 52 * b * bp) / 693)
  | 4 => some (
      (-74) * (a * ap - b * bp) / 231)
  | 5 => some (
      2 * (2956 * a * ap + 1503 * ap * b + 1503 * a * bp + 2956 * b * bp) / 9009)
  | 6 => some (
      (-38) * (a * ap - b * bp) / 117)
  | 7 => some (
      (-2) * (452 * a * ap + 643 * ap * b + 643 * a * bp + 452 * b * bp) / 6435)
  | 8 => some (
      34 * (a * ap - b * bp) / 165)
  | 9 => some (
      (-2) * (12820 * a * ap - 3657 * ap * b - 3657 * a * bp + 12820 * b * bp) / 255255)
  | 10 => some (
      242 * (a * ap - b * bp) / 4641)
  | _ => none

/-- GMAT_sphere.py 783-825: `MPRIME`, entries with `i = 6`. -/
noncomputable def mPrimeRow6 (j : ℕ) (a b ap bp : ℝ) : Option ℝ :=
  match j with
  | 0 => some (
      Real.sqrt 2 * (b * (ap - 10 * bp) + a * ((-10) * ap + bp)) / 315)
  | 1 => some (
      22 * (a * ap - b * bp) / 315)
  | 2 => some (
      (-2) * (194 * a * ap - 51 * ap * b - 51 * a * bp + 194 * b * bp) / 3465)
  | 3 => some (
      82 * (a * ap - b * bp) / 385)
  | 4 => some (
      (-2) * (3238 * a * ap + 4497 * ap * b + 4497 * a * bp + 3238 * b * bp) / 45045)
  | 5 => some (
      (-38) * (a * ap - b * bp) / 117)
  | 6 => some (
      2 * (2122 * a * ap + 1073 * ap * b + 1073 * a * bp + 2122 * b * bp) / 6435)
  | 7 => some (
      (-18) * (a * ap - b * bp) / 55)
  | 8 => some (
      (-2) * (842 * a * ap + 1215 * ap * b + 1215 * a * bp + 842 * b * bp) / 12155)
  | 9 => some (
      226 * (a * ap - b * bp) / 1105)
  | 10 => some (
      (-6) * (2430 * a * ap - 701 * ap * b - 701 * a * bp + 2430 * b * bp) / 146965)
  | _ => none

/-- GMAT_sphere.py 829-871: `MPRIME`, entries with `i = 7`. -/
noncomputable def mPrimeRow7 (j : ℕ) (a b ap bp : ℝ) : Option ℝ :=
  match j with
  | 0 => some (
      Real.sqrt 2 * (a * ap - b * bp) / 45)
  | 1 => some (
      (-2) * (12 * a * ap - ap * b - a * bp + 12 * b * bp) / 495)
  | 2 => some (
      2 * (a * ap - b * bp) / 33)
  | 3 => some (
      (-2) * (340 * a * ap - 93 * ap * b - 93 * a * bp + 340 * b * bp) / 6435)
  | 4 => some (
      122 * (a * ap - b * bp) / 585)
  | 5 => some (
      (-2) * (452 * a * ap + 643 * ap * b + 643 * a * bp + 452 * b * bp) / 6435)
  | 6 => some (
      (-18) * (a * ap - b * bp) / 55)
  | 7 => some (
      2 * (12060 * a * ap + 6079 * ap * b + 6079 * a * bp + 12060 * b * bp) / 36465)
  | 8 => some (
      (-218) * (a * ap - b * bp) / 663)
  | 9 => some (
      (-2) * (4324 * a * ap + 6297 * ap * b + 6297 * a * bp + 4324 * b * bp) / 62985)
  | 10 => some (
      58 * (a * ap - b * bp) / 285)
  | _ => none

/-- GMAT_sphere.py 875-917: `MPRIME`, entries with `i = 8`. -/
noncomputable def mPrimeRow8 (j : ℕ) (a b ap bp : ℝ) : Option ℝ :=
  match j with
  | 0 => some (
      Real.sqrt 2 * ((-58) * a * ap + 3 * ap * b + 3 * a * bp - 58 * b * bp) / 3465)
  | 1 => some (
      122 * (a * ap - b * bp) / 3465)
  | 2 => some (
      (-2) * (950 * a * ap - 79 * ap * b - 79 * a * bp + 950 * b * bp) / 45045)
  | 3 => some (
      46 * (a * ap - b * bp) / 819)
  | 4 => some (
      (-2) * (2306 * a * ap - 647 * ap * b - 647 * a * bp + 2306 * b * bp) / 45045)
  | 5 => some (
      34 * (a * ap - b * bp) / 165)
  | 6 => some (
      (-2) * (842 * a * ap + 1215 * ap * b + 1215 * a * bp + 842 * b * bp) / 12155)
  | 7 => some (
      (-218) * (a * ap - b * bp) / 663)
  | 8 => some (
      2 * (20870 * a * ap + 10499 * ap * b + 10499 * a * bp + 20870 * b * bp) / 62985)
  | 9 => some (
      (-94) * (a * ap - b * bp) / 285)
  | 10 => some (
      (-2) * (2314 * a * ap + 3391 * ap * b + 3391 * a * bp + 2314 * b * bp) / 33915)
  | _ => none

/-- GMAT_sphere.py 921-963: `MPRIME`, entries with `i = 9`. -/
noncomputable def mPrimeRow9 (j : ℕ) (a b ap bp : ℝ) : Option ℝ :=
  match j with
  | 0 => some (
      Real.sqrt 2 * (a * ap - b * bp) / 77)
  | 1 => some (
      (-2) * (68 * a * ap - 3 * ap * b - 3 * a * bp + 68 * b * bp) / 5005)
  | 2 => some (
      2 * (a * ap - b * bp) / 65)
  | 3 => some (
      ((-584) * a * ap + 50 * ap * b + 50 * a * bp - 584 * b * bp) / 15015)
  | 4 => some (
      62 * (a * ap - b * bp) / 1155)
  | 5 => some (
      (-2) * (12820 * a * ap - 3657 * ap * b - 3657 * a * bp + 12820 * b * bp) / 255255)
  | 6 => some (
      226 * (a * ap - b * bp) / 1105)
  | 7 => some (
      (-2) * (4324 * a * ap + 6297 * ap * b + 6297 * a * bp + 4324 * b * bp) / 62985)
  | 8 => some (
      (-94) * (a * ap - b * bp) / 285)
  | 9 => some (
      2 * (11252 * a * ap + 5653 * ap * b + 5653 * a * bp + 11252 * b * bp) / 33915)
  | 10 => some (
      59 * ((-2) * a * ap + 2 * b * bp) / 357)
  | _ => none

/-- GMAT_sphere.py 967-1009: `MPRIME`, entries with `i = 10`. -/
noncomputable def mPrimeRow10 (j : ℕ) (a b ap bp : ℝ) : Option ℝ :=
  match j with
  | 0 => some (
      Real.sqrt 2 * ((-94) * a * ap + 3 * ap * b + 3 * a * bp - 94 * b * bp) / 9009)
  | 1 => some (
      194 * (a * ap - b * bp) / 9009)
  | 2 => some (
      (-2) * (538 * a * ap - 23 * ap * b - 23 * a * bp + 538 * b * bp) / 45045)
  | 3 => some (
      14 * (a * ap - b * bp) / 495)
  | 4 => some (
      (-2) * (14150 * a * ap - 1247 * ap * b - 1247 * a * bp + 14150 * b * bp) / 765765)
  | 5 => some (
      242 * (a * ap - b * bp) / 4641)
  | 6 => some (
      (-6) * (2430 * a * ap - 701 * ap * b - 701 * a * bp + 2430 * b * bp) / 146965)
  | 7 => some (
      58 * (a * ap - b * bp) / 285)
  | 8 => some (
      (-2) * (2314 * a * ap + 3391 * ap * b + 3391 * a * bp + 2314 * b * bp) / 33915)
  | 9 => some (
      59 * ((-2) * a * ap + 2 * b * bp) / 357)
  | 10 => some (
      2 * (51806 * a * ap + 26003 * ap * b + 26003 * a * bp + 51806 * b * bp) / 156009)
  | _ => none

/-- GMAT_sphere.py 515-1009 `MPRIME(i, j, a, b, ap, bp)`. -/
noncomputable def mPrime (i j : ℕ) (a b ap bp : ℝ) : Option ℝ :=
  match i with
  | 0 => mPrimeRow0 j a b ap bp
  | 1 => mPrimeRow1 j a b ap bp
  | 2 => mPrimeRow2 j a b ap bp
  | 3 => mPrimeRow3 j a b ap bp
  | 4 => mPrimeRow4 j a b ap bp
  | 5 => mPrimeRow5 j a b ap bp
  | 6 => mPrimeRow6 j a b ap bp
  | 7 => mPrimeRow7 j a b ap bp
  | 8 => mPrimeRow8 j a b ap bp
  | 9 => mPrimeRow9 j a b ap bp
  | 10 => mPrimeRow10 j a b ap bp
  | _ => none

end Verif.Model
