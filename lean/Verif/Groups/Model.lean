import Mathlib.Data.Rat.Defs
import Mathlib.Algebra.Order.Ring.Rat

/-! # Model: the built-in group structures (ASAPy/njoy.py)

The literals are taken exactly; their rounding to floating point numbers (one part in 10^15) is not modelled. -/

namespace ASAPy.Groups

/-- A literal `m * 10^e`. -/
def lit (m : Nat) (e : Int) : ℚ := (m : ℚ) * (10 : ℚ) ^ e

/-- `energy_groups_238`, lines 83-84. Written from high to low, then reversed. -/
def groups238 : List ℚ := List.reverse [
   lit 2 7, lit 17333 3, lit 15683 3, lit 1455 4, lit 1384 4, lit 1284 4, lit 1 7, lit 81873 2, lit 6434 3, lit 48 5,
   lit 4304 3, lit 3 6, lit 2479 3, lit 2354 3, lit 185 4, lit 15 5, lit 14 5, lit 1356 3, lit 1317 3, lit 125 4,
   lit 12 5, lit 11 5, lit 101 4, lit 92 4, lit 9 5, lit 875 3, lit 8611 2, lit 82 4, lit 75 4, lit 679 3,
   lit 67 4, lit 6 5, lit 573 3, lit 55 4, lit 49952 1, lit 47 4, lit 44 4, lit 42 4, lit 4 5, lit 33 4,
   lit 27 4, lit 2 5, lit 15 4, lit 1283 2, lit 1 5, lit 85 3, lit 82 3, lit 75 3, lit 73 3, lit 6 4,
   lit 52 3, lit 5 4, lit 45 3, lit 3 4, lit 25 3, lit 17 3, lit 13 3, lit 95 2, lit 803 1, lit 6 3,
   lit 39 2, lit 374 1, lit 3 3, lit 258 1, lit 229 1, lit 22 2, lit 18 2, lit 155 1, lit 15 2, lit 115 1,
   lit 95 1, lit 683 0, lit 67 1, lit 55 1, lit 305 0, lit 285 0, lit 24 1, lit 21 1, lit 2075 (-1), lit 1925 (-1),
   lit 186 0, lit 122 0, lit 119 0, lit 115 0, lit 108 0, lit 1 2, lit 9 1, lit 82 0, lit 8 1, lit 76 0,
   lit 72 0, lit 675 (-1), lit 65 0, lit 61 0, lit 59 0, lit 534 (-1), lit 52 0, lit 506 (-1), lit 492 (-1), lit 483 (-1),
   lit 47 0, lit 452 (-1), lit 44 0, lit 424 (-1), lit 41 0, lit 396 (-1), lit 391 (-1), lit 38 0, lit 37 0, lit 355 (-1),
   lit 346 (-1), lit 3375 (-2), lit 3325 (-2), lit 3175 (-2), lit 3125 (-2), lit 3 1, lit 275 (-1), lit 25 0, lit 225 (-1), lit 21 0,
   lit 2 1, lit 19 0, lit 185 (-1), lit 17 0, lit 16 0, lit 151 (-1), lit 144 (-1), lit 1375 (-2), lit 129 (-1), lit 119 (-1),
   lit 115 (-1), lit 1 1, lit 91 (-1), lit 81 (-1), lit 715 (-2), lit 7 0, lit 675 (-2), lit 65 (-1), lit 625 (-2), lit 6 0,
   lit 54 (-1), lit 5 0, lit 475 (-2), lit 4 0, lit 373 (-2), lit 35 (-1), lit 315 (-2), lit 305 (-2), lit 3 0, lit 297 (-2),
   lit 287 (-2), lit 277 (-2), lit 267 (-2), lit 257 (-2), lit 247 (-2), lit 238 (-2), lit 23 (-1), lit 221 (-2), lit 212 (-2), lit 2 0,
   lit 194 (-2), lit 186 (-2), lit 177 (-2), lit 168 (-2), lit 159 (-2), lit 15 (-1), lit 145 (-2), lit 14 (-1), lit 135 (-2), lit 13 (-1),
   lit 125 (-2), lit 1225 (-3), lit 12 (-1), lit 1175 (-3), lit 115 (-2), lit 114 (-2), lit 113 (-2), lit 112 (-2), lit 111 (-2), lit 11 (-1),
   lit 109 (-2), lit 108 (-2), lit 107 (-2), lit 106 (-2), lit 105 (-2), lit 104 (-2), lit 103 (-2), lit 102 (-2), lit 101 (-2), lit 1 0,
   lit 975 (-3), lit 95 (-2), lit 925 (-3), lit 9 (-1), lit 85 (-2), lit 8 (-1), lit 75 (-2), lit 7 (-1), lit 65 (-2), lit 625 (-3),
   lit 6 (-1), lit 55 (-2), lit 5 (-1), lit 45 (-2), lit 4 (-1), lit 375 (-3), lit 35 (-2), lit 325 (-3), lit 3 (-1), lit 275 (-3),
   lit 25 (-2), lit 225 (-3), lit 2 (-1), lit 175 (-3), lit 15 (-2), lit 125 (-3), lit 1 (-1), lit 9 (-2), lit 8 (-2), lit 7 (-2),
   lit 6 (-2), lit 5 (-2), lit 4 (-2), lit 3 (-2), lit 253 (-4), lit 1 (-2), lit 75 (-4), lit 5 (-3), lit 4 (-3), lit 3 (-3),
   lit 25 (-4), lit 2 (-3), lit 15 (-4), lit 12 (-4), lit 1 (-3), lit 75 (-5), lit 5 (-4), lit 1 (-4), lit 1 (-5)]

/-- `energy_groups_44`, lines 86-87. Written in MeV, then multiplied by 1e6. -/
def groups44 : List ℚ := List.map (· * 1000000) [
   lit 1 (-11), lit 3 (-9), lit 75 (-10), lit 1 (-8), lit 253 (-10), lit 3 (-8), lit 4 (-8), lit 5 (-8), lit 7 (-8), lit 1 (-7),
   lit 15 (-8), lit 2 (-7), lit 225 (-9), lit 25 (-8), lit 275 (-9), lit 325 (-9), lit 35 (-8), lit 375 (-9), lit 4 (-7), lit 625 (-9),
   lit 1 (-6), lit 177 (-8), lit 3 (-6), lit 475 (-8), lit 6 (-6), lit 81 (-7), lit 1 (-5), lit 3 (-5), lit 1 (-4), lit 55 (-5),
   lit 3 (-3), lit 17 (-3), lit 25 (-3), lit 1 (-1), lit 4 (-1), lit 9 (-1), lit 14 (-1), lit 185 (-2), lit 2354 (-3), lit 2479 (-3),
   lit 3 0, lit 48 (-1), lit 6434 (-3), lit 81873 (-4), lit 2 1]

/-- `energy_groups_56`, line 89. -/
def groups56 : List ℚ := [
   lit 1 (-5), lit 4 (-3), lit 1 (-2), lit 253 (-4), lit 4 (-2), lit 5 (-2), lit 6 (-2), lit 8 (-2), lit 1 (-1), lit 15 (-2),
   lit 2 (-1), lit 25 (-2), lit 325 (-3), lit 35 (-2), lit 375 (-3), lit 45 (-2), lit 625 (-3), lit 101 (-2), lit 108 (-2), lit 113 (-2),
   lit 5 0, lit 625 (-2), lit 65 (-1), lit 6875 (-3), lit 7 0, lit 205 (-1), lit 212 (-1), lit 2175 (-2), lit 36 0, lit 3713 (-2),
   lit 65 0, lit 675 (-1), lit 1012 (-1), lit 105 0, lit 116 0, lit 1175 (-1), lit 1877 (-1), lit 1915 (-1), lit 225 1, lit 374 1,
   lit 17 3, lit 2 4, lit 5 4, lit 2 5, lit 27 4, lit 33 4, lit 47 4, lit 6 5, lit 75 4, lit 8611 2,
   lit 12 5, lit 15 5, lit 185 4, lit 3 6, lit 4304 3, lit 6434 3, lit 2 7]

/-- `energy_groups_252`, lines 91-92. Written from high to low, then reversed. -/
def groups252 : List ℚ := List.reverse [
   lit 2 7, lit 1733 4, lit 1568 4, lit 1455 4, lit 1384 4, lit 1284 4, lit 1 7, lit 8187 3, lit 6434 3, lit 48 5,
   lit 4304 3, lit 3 6, lit 2479 3, lit 2354 3, lit 185 4, lit 15 5, lit 14 5, lit 1356 3, lit 1317 3, lit 125 4,
   lit 12 5, lit 11 5, lit 101 4, lit 92 4, lit 9 5, lit 875 3, lit 8611 2, lit 82 4, lit 75 4, lit 679 3,
   lit 67 4, lit 6 5, lit 573 3, lit 55 4, lit 492 3, lit 47 4, lit 44 4, lit 42 4, lit 4 5, lit 33 4,
   lit 27 4, lit 2 5, lit 149 3, lit 1283 2, lit 1 5, lit 85 3, lit 82 3, lit 75 3, lit 73 3, lit 6 4,
   lit 52 3, lit 5 4, lit 45 3, lit 3 4, lit 2 4, lit 17 3, lit 13 3, lit 95 2, lit 803 1, lit 57 2,
   lit 39 2, lit 374 1, lit 3 3, lit 25 2, lit 225 1, lit 22 2, lit 18 2, lit 155 1, lit 15 2, lit 115 1,
   lit 95 1, lit 683 0, lit 67 1, lit 55 1, lit 305 0, lit 285 0, lit 24 1, lit 22 1, lit 2095 (-1), lit 2074 (-1),
   lit 202 0, lit 193 0, lit 1915 (-1), lit 1885 (-1), lit 1877 (-1), lit 18 1, lit 17 1, lit 143 0, lit 122 0, lit 119 0,
   lit 1175 (-1), lit 116 0, lit 113 0, lit 108 0, lit 105 0, lit 1012 (-1), lit 97 0, lit 9 1, lit 817 (-1), lit 8 1,
   lit 76 0, lit 72 0, lit 675 (-1), lit 65 0, lit 63 0, lit 61 0, lit 58 0, lit 534 (-1), lit 506 (-1), lit 483 (-1),
   lit 452 (-1), lit 44 0, lit 424 (-1), lit 41 0, lit 396 (-1), lit 391 (-1), lit 38 0, lit 3763 (-2), lit 3727 (-2), lit 3713 (-2),
   lit 37 0, lit 36 0, lit 355 (-1), lit 35 0, lit 3375 (-2), lit 3325 (-2), lit 3175 (-2), lit 3125 (-2), lit 3 1, lit 275 (-1),
   lit 25 0, lit 225 (-1), lit 2175 (-2), lit 212 (-1), lit 205 (-1), lit 2 1, lit 194 (-1), lit 185 (-1), lit 17 0, lit 16 0,
   lit 144 (-1), lit 129 (-1), lit 119 (-1), lit 115 (-1), lit 1 1, lit 91 (-1), lit 81 (-1), lit 715 (-2), lit 7 0, lit 6875 (-3),
   lit 675 (-2), lit 65 (-1), lit 625 (-2), lit 6 0, lit 54 (-1), lit 5 0, lit 47 (-1), lit 41 (-1), lit 373 (-2), lit 35 (-1),
   lit 32 (-1), lit 31 (-1), lit 3 0, lit 297 (-2), lit 287 (-2), lit 277 (-2), lit 267 (-2), lit 257 (-2), lit 247 (-2), lit 238 (-2),
   lit 23 (-1), lit 221 (-2), lit 212 (-2), lit 2 0, lit 194 (-2), lit 186 (-2), lit 177 (-2), lit 168 (-2), lit 159 (-2), lit 15 (-1),
   lit 145 (-2), lit 14 (-1), lit 135 (-2), lit 13 (-1), lit 125 (-2), lit 1225 (-3), lit 12 (-1), lit 1175 (-3), lit 115 (-2), lit 114 (-2),
   lit 113 (-2), lit 112 (-2), lit 111 (-2), lit 11 (-1), lit 109 (-2), lit 108 (-2), lit 107 (-2), lit 106 (-2), lit 105 (-2), lit 104 (-2),
   lit 103 (-2), lit 102 (-2), lit 101 (-2), lit 1 0, lit 975 (-3), lit 95 (-2), lit 925 (-3), lit 9 (-1), lit 85 (-2), lit 8 (-1),
   lit 75 (-2), lit 7 (-1), lit 65 (-2), lit 625 (-3), lit 6 (-1), lit 55 (-2), lit 5 (-1), lit 45 (-2), lit 4 (-1), lit 375 (-3),
   lit 35 (-2), lit 325 (-3), lit 3 (-1), lit 275 (-3), lit 25 (-2), lit 225 (-3), lit 2 (-1), lit 175 (-3), lit 15 (-2), lit 125 (-3),
   lit 1 (-1), lit 9 (-2), lit 8 (-2), lit 7 (-2), lit 6 (-2), lit 5 (-2), lit 4 (-2), lit 3 (-2), lit 253 (-4), lit 1 (-2),
   lit 75 (-4), lit 5 (-3), lit 4 (-3), lit 3 (-3), lit 25 (-4), lit 2 (-3), lit 15 (-4), lit 12 (-4), lit 1 (-3), lit 75 (-5),
   lit 5 (-4), lit 1 (-4), lit 1 (-5)]

/-- `energy_groups_3`, line 94. -/
def groups3 : List ℚ := [
   lit 1 (-5), lit 625 (-3), lit 55 2, lit 2 7]

/-- The structures a user can choose. -/
def structures : List (List ℚ) := [groups238, groups44, groups56, groups252, groups3]

end ASAPy.Groups
