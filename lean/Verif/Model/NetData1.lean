set_option autoImplicit false
/-
Sorting networks for 2 to 20 elements, transcribed from detail/sorting_network/sortN.h.
`netN` is the sequence of compare-exchanges of `operator()`, `netPairsN` the table of `index_pairs()`.
-/
namespace CppSort

/-- detail/sorting_network/sort2.h 27-27. -/
def net2 : List (Nat × Nat) := [
  (0, 1)]

/-- detail/sorting_network/sort2.h 35-37. -/
def netPairs2 : List (Nat × Nat) := [
  (0, 1)]

/-- detail/sorting_network/sort3.h 27-29. -/
def net3 : List (Nat × Nat) := [
  (0, 1), (1, 2), (0, 1)]

/-- detail/sorting_network/sort3.h 37-41. -/
def netPairs3 : List (Nat × Nat) := [
  (0, 1), (1, 2), (0, 1)]

/-- detail/sorting_network/sort4.h 27-31. -/
def net4 : List (Nat × Nat) := [
  (0, 2), (1, 3), (0, 1), (2, 3), (1, 2)]

/-- detail/sorting_network/sort4.h 39-43. -/
def netPairs4 : List (Nat × Nat) := [
  (0, 2), (1, 3), (0, 1), (2, 3), (1, 2)]

/-- detail/sorting_network/sort5.h 27-35. -/
def net5 : List (Nat × Nat) := [
  (0, 3), (1, 4), (0, 2), (1, 3), (0, 1), (2, 4), (1, 2), (3, 4), (2, 3)]

/-- detail/sorting_network/sort5.h 43-49. -/
def netPairs5 : List (Nat × Nat) := [
  (0, 3), (1, 4), (0, 2), (1, 3), (0, 1), (2, 4), (1, 2), (3, 4), (2, 3)]

/-- detail/sorting_network/sort6.h 27-38. -/
def net6 : List (Nat × Nat) := [
  (0, 5), (1, 3), (2, 4), (1, 2), (3, 4), (0, 3), (2, 5), (0, 1), (2, 3), (4, 5), (1, 2),
  (3, 4)]

/-- detail/sorting_network/sort6.h 46-52. -/
def netPairs6 : List (Nat × Nat) := [
  (0, 5), (1, 3), (2, 4), (1, 2), (3, 4), (0, 3), (2, 5), (0, 1), (2, 3), (4, 5), (1, 2),
  (3, 4)]

/-- detail/sorting_network/sort7.h 27-42. -/
def net7 : List (Nat × Nat) := [
  (0, 6), (2, 3), (4, 5), (0, 2), (1, 4), (3, 6), (0, 1), (2, 5), (3, 4), (1, 2), (4, 6),
  (2, 3), (4, 5), (1, 2), (3, 4), (5, 6)]

/-- detail/sorting_network/sort7.h 50-57. -/
def netPairs7 : List (Nat × Nat) := [
  (0, 6), (2, 3), (4, 5), (0, 2), (1, 4), (3, 6), (0, 1), (2, 5), (3, 4), (1, 2), (4, 6),
  (2, 3), (4, 5), (1, 2), (3, 4), (5, 6)]

/-- detail/sorting_network/sort8.h 27-45. -/
def net8 : List (Nat × Nat) := [
  (0, 2), (1, 3), (4, 6), (5, 7), (0, 4), (1, 5), (2, 6), (3, 7), (0, 1), (2, 3), (4, 5),
  (6, 7), (2, 4), (3, 5), (1, 4), (3, 6), (1, 2), (3, 4), (5, 6)]

/-- detail/sorting_network/sort8.h 53-60. -/
def netPairs8 : List (Nat × Nat) := [
  (0, 2), (1, 3), (4, 6), (5, 7), (0, 4), (1, 5), (2, 6), (3, 7), (0, 1), (2, 3), (4, 5),
  (6, 7), (2, 4), (3, 5), (1, 4), (3, 6), (1, 2), (3, 4), (5, 6)]

/-- detail/sorting_network/sort9.h 27-51. -/
def net9 : List (Nat × Nat) := [
  (0, 3), (1, 7), (2, 5), (4, 8), (0, 7), (2, 4), (3, 8), (5, 6), (0, 2), (1, 3), (4, 5),
  (7, 8), (1, 4), (3, 6), (5, 7), (0, 1), (2, 4), (3, 5), (6, 8), (2, 3), (4, 5), (6, 7),
  (1, 2), (3, 4), (5, 6)]

/-- detail/sorting_network/sort9.h 59-67. -/
def netPairs9 : List (Nat × Nat) := [
  (0, 3), (1, 7), (2, 5), (4, 8), (0, 7), (2, 4), (3, 8), (5, 6), (0, 2), (1, 3), (4, 5),
  (7, 8), (1, 4), (3, 6), (5, 7), (0, 1), (2, 4), (3, 5), (6, 8), (2, 3), (4, 5), (6, 7),
  (1, 2), (3, 4), (5, 6)]

/-- detail/sorting_network/sort10.h 27-55. -/
def net10 : List (Nat × Nat) := [
  (0, 8), (1, 9), (2, 7), (3, 5), (4, 6), (0, 2), (1, 4), (5, 8), (7, 9), (0, 3), (2, 4),
  (5, 7), (6, 9), (0, 1), (3, 6), (8, 9), (1, 5), (2, 3), (4, 8), (6, 7), (1, 2), (3, 5),
  (4, 6), (7, 8), (2, 3), (4, 5), (6, 7), (3, 4), (5, 6)]

/-- detail/sorting_network/sort10.h 63-72. -/
def netPairs10 : List (Nat × Nat) := [
  (0, 8), (1, 9), (2, 7), (3, 5), (4, 6), (0, 2), (1, 4), (5, 8), (7, 9), (0, 3), (2, 4),
  (5, 7), (6, 9), (0, 1), (3, 6), (8, 9), (1, 5), (2, 3), (4, 8), (6, 7), (1, 2), (3, 5),
  (4, 6), (7, 8), (2, 3), (4, 5), (6, 7), (3, 4), (5, 6)]

/-- detail/sorting_network/sort11.h 27-61. -/
def net11 : List (Nat × Nat) := [
  (0, 9), (1, 6), (2, 4), (3, 7), (5, 8), (0, 1), (3, 5), (4, 10), (6, 9), (7, 8), (1, 3),
  (2, 5), (4, 7), (8, 10), (0, 4), (1, 2), (3, 7), (5, 9), (6, 8), (0, 1), (2, 6), (4, 5),
  (7, 8), (9, 10), (2, 4), (3, 6), (5, 7), (8, 9), (1, 2), (3, 4), (5, 6), (7, 8), (2, 3),
  (4, 5), (6, 7)]

/-- detail/sorting_network/sort11.h 69-78. -/
def netPairs11 : List (Nat × Nat) := [
  (0, 9), (1, 6), (2, 4), (3, 7), (5, 8), (0, 1), (3, 5), (4, 10), (6, 9), (7, 8), (1, 3),
  (2, 5), (4, 7), (8, 10), (0, 4), (1, 2), (3, 7), (5, 9), (6, 8), (0, 1), (2, 6), (4, 5),
  (7, 8), (9, 10), (2, 4), (3, 6), (5, 7), (8, 9), (1, 2), (3, 4), (5, 6), (7, 8), (2, 3),
  (4, 5), (6, 7)]

/-- detail/sorting_network/sort12.h 27-65. -/
def net12 : List (Nat × Nat) := [
  (0, 8), (1, 7), (2, 6), (3, 11), (4, 10), (5, 9), (0, 1), (2, 5), (3, 4), (6, 9), (7, 8),
  (10, 11), (0, 2), (1, 6), (5, 10), (9, 11), (0, 3), (1, 2), (4, 6), (5, 7), (8, 11), (9, 10),
  (1, 4), (3, 5), (6, 8), (7, 10), (1, 3), (2, 5), (6, 9), (8, 10), (2, 3), (4, 5), (6, 7),
  (8, 9), (4, 6), (5, 7), (3, 4), (5, 6), (7, 8)]

/-- detail/sorting_network/sort12.h 73-83. -/
def netPairs12 : List (Nat × Nat) := [
  (0, 8), (1, 7), (2, 6), (3, 11), (4, 10), (5, 9), (0, 1), (2, 5), (3, 4), (6, 9), (7, 8),
  (10, 11), (0, 2), (1, 6), (5, 10), (9, 11), (0, 3), (1, 2), (4, 6), (5, 7), (8, 11), (9, 10),
  (1, 4), (3, 5), (6, 8), (7, 10), (1, 3), (2, 5), (6, 9), (8, 10), (2, 3), (4, 5), (6, 7),
  (8, 9), (4, 6), (5, 7), (3, 4), (5, 6), (7, 8)]

/-- detail/sorting_network/sort13.h 27-71. -/
def net13 : List (Nat × Nat) := [
  (0, 12), (1, 10), (2, 9), (3, 7), (5, 11), (6, 8), (1, 6), (2, 3), (4, 11), (7, 9), (8, 10),
  (0, 4), (1, 2), (3, 6), (7, 8), (9, 10), (11, 12), (4, 6), (5, 9), (8, 11), (10, 12), (0, 5),
  (3, 8), (4, 7), (6, 11), (9, 10), (0, 1), (2, 5), (6, 9), (7, 8), (10, 11), (1, 3), (2, 4),
  (5, 6), (9, 10), (1, 2), (3, 4), (5, 7), (6, 8), (2, 3), (4, 5), (6, 7), (8, 9), (3, 4),
  (5, 6)]

/-- detail/sorting_network/sort13.h 79-90. -/
def netPairs13 : List (Nat × Nat) := [
  (0, 12), (1, 10), (2, 9), (3, 7), (5, 11), (6, 8), (1, 6), (2, 3), (4, 11), (7, 9), (8, 10),
  (0, 4), (1, 2), (3, 6), (7, 8), (9, 10), (11, 12), (4, 6), (5, 9), (8, 11), (10, 12), (0, 5),
  (3, 8), (4, 7), (6, 11), (9, 10), (0, 1), (2, 5), (6, 9), (7, 8), (10, 11), (1, 3), (2, 4),
  (5, 6), (9, 10), (1, 2), (3, 4), (5, 7), (6, 8), (2, 3), (4, 5), (6, 7), (8, 9), (3, 4),
  (5, 6)]

/-- detail/sorting_network/sort14.h 27-77. -/
def net14 : List (Nat × Nat) := [
  (0, 1), (2, 3), (4, 5), (6, 7), (8, 9), (10, 11), (12, 13), (0, 2), (1, 3), (4, 8), (5, 9),
  (10, 12), (11, 13), (0, 4), (1, 2), (3, 7), (5, 8), (6, 10), (9, 13), (11, 12), (0, 6),
  (1, 5), (3, 9), (4, 10), (7, 13), (8, 12), (2, 10), (3, 11), (4, 6), (7, 9), (1, 3), (2, 8),
  (5, 11), (6, 7), (10, 12), (1, 4), (2, 6), (3, 5), (7, 11), (8, 10), (9, 12), (2, 4), (3, 6),
  (5, 8), (7, 10), (9, 11), (3, 4), (5, 6), (7, 8), (9, 10), (6, 7)]

/-- detail/sorting_network/sort14.h 85-96. -/
def netPairs14 : List (Nat × Nat) := [
  (0, 1), (2, 3), (4, 5), (6, 7), (8, 9), (10, 11), (12, 13), (0, 2), (1, 3), (4, 8), (5, 9),
  (10, 12), (11, 13), (0, 4), (1, 2), (3, 7), (5, 8), (6, 10), (9, 13), (11, 12), (0, 6),
  (1, 5), (3, 9), (4, 10), (7, 13), (8, 12), (2, 10), (3, 11), (4, 6), (7, 9), (1, 3), (2, 8),
  (5, 11), (6, 7), (10, 12), (1, 4), (2, 6), (3, 5), (7, 11), (8, 10), (9, 12), (2, 4), (3, 6),
  (5, 8), (7, 10), (9, 11), (3, 4), (5, 6), (7, 8), (9, 10), (6, 7)]

/-- detail/sorting_network/sort15.h 27-82. -/
def net15 : List (Nat × Nat) := [
  (1, 2), (3, 10), (4, 14), (5, 8), (6, 13), (7, 12), (9, 11), (0, 14), (1, 5), (2, 8), (3, 7),
  (6, 9), (10, 12), (11, 13), (0, 7), (1, 6), (2, 9), (4, 10), (5, 11), (8, 13), (12, 14),
  (0, 6), (2, 4), (3, 5), (7, 11), (8, 10), (9, 12), (13, 14), (0, 3), (1, 2), (4, 7), (5, 9),
  (6, 8), (10, 11), (12, 13), (0, 1), (2, 3), (4, 6), (7, 9), (10, 12), (11, 13), (1, 2),
  (3, 5), (8, 10), (11, 12), (3, 4), (5, 6), (7, 8), (9, 10), (2, 3), (4, 5), (6, 7), (8, 9),
  (10, 11), (5, 6), (7, 8)]

/-- detail/sorting_network/sort15.h 90-101. -/
def netPairs15 : List (Nat × Nat) := [
  (1, 2), (3, 10), (4, 14), (5, 8), (6, 13), (7, 12), (9, 11), (0, 14), (1, 5), (2, 8), (3, 7),
  (6, 9), (10, 12), (11, 13), (0, 7), (1, 6), (2, 9), (4, 10), (5, 11), (8, 13), (12, 14),
  (0, 6), (2, 4), (3, 5), (7, 11), (8, 10), (9, 12), (13, 14), (0, 3), (1, 2), (4, 7), (5, 9),
  (6, 8), (10, 11), (12, 13), (0, 1), (2, 3), (4, 6), (7, 9), (10, 12), (11, 13), (1, 2),
  (3, 5), (8, 10), (11, 12), (3, 4), (5, 6), (7, 8), (9, 10), (2, 3), (4, 5), (6, 7), (8, 9),
  (10, 11), (5, 6), (7, 8)]

/-- detail/sorting_network/sort16.h 27-86. -/
def net16 : List (Nat × Nat) := [
  (0, 13), (1, 12), (2, 15), (3, 14), (4, 8), (5, 6), (7, 11), (9, 10), (0, 5), (1, 7), (2, 9),
  (3, 4), (6, 13), (8, 14), (10, 15), (11, 12), (0, 1), (2, 3), (4, 5), (6, 8), (7, 9),
  (10, 11), (12, 13), (14, 15), (0, 2), (1, 3), (4, 10), (5, 11), (6, 7), (8, 9), (12, 14),
  (13, 15), (1, 2), (3, 12), (4, 6), (5, 7), (8, 10), (9, 11), (13, 14), (1, 4), (2, 6),
  (5, 8), (7, 10), (9, 13), (11, 14), (2, 4), (3, 6), (9, 12), (11, 13), (3, 5), (6, 8),
  (7, 9), (10, 12), (3, 4), (5, 6), (7, 8), (9, 10), (11, 12), (6, 7), (8, 9)]

/-- detail/sorting_network/sort16.h 94-105. -/
def netPairs16 : List (Nat × Nat) := [
  (0, 13), (1, 12), (2, 15), (3, 14), (4, 8), (5, 6), (7, 11), (9, 10), (0, 5), (1, 7), (2, 9),
  (3, 4), (6, 13), (8, 14), (10, 15), (11, 12), (0, 1), (2, 3), (4, 5), (6, 8), (7, 9),
  (10, 11), (12, 13), (14, 15), (0, 2), (1, 3), (4, 10), (5, 11), (6, 7), (8, 9), (12, 14),
  (13, 15), (1, 2), (3, 12), (4, 6), (5, 7), (8, 10), (9, 11), (13, 14), (1, 4), (2, 6),
  (5, 8), (7, 10), (9, 13), (11, 14), (2, 4), (3, 6), (9, 12), (11, 13), (3, 5), (6, 8),
  (7, 9), (10, 12), (3, 4), (5, 6), (7, 8), (9, 10), (11, 12), (6, 7), (8, 9)]

/-- detail/sorting_network/sort17.h 27-97. -/
def net17 : List (Nat × Nat) := [
  (0, 11), (1, 15), (2, 10), (3, 5), (4, 6), (8, 12), (9, 16), (13, 14), (0, 6), (1, 13),
  (2, 8), (4, 14), (5, 15), (7, 11), (0, 8), (3, 7), (4, 9), (6, 16), (10, 11), (12, 14),
  (0, 2), (1, 4), (5, 6), (7, 13), (8, 9), (10, 12), (11, 14), (15, 16), (0, 3), (2, 5),
  (6, 11), (7, 10), (9, 13), (12, 15), (14, 16), (0, 1), (3, 4), (5, 10), (6, 9), (7, 8),
  (11, 15), (13, 14), (1, 2), (3, 7), (4, 8), (6, 12), (11, 13), (14, 15), (1, 3), (2, 7),
  (4, 5), (9, 11), (10, 12), (13, 14), (2, 3), (4, 6), (5, 7), (8, 10), (3, 4), (6, 8), (7, 9),
  (10, 12), (5, 6), (7, 8), (9, 10), (11, 12), (4, 5), (6, 7), (8, 9), (10, 11), (12, 13)]

/-- detail/sorting_network/sort17.h 105-118. -/
def netPairs17 : List (Nat × Nat) := [
  (0, 11), (1, 15), (2, 10), (3, 5), (4, 6), (8, 12), (9, 16), (13, 14), (0, 6), (1, 13),
  (2, 8), (4, 14), (5, 15), (7, 11), (0, 8), (3, 7), (4, 9), (6, 16), (10, 11), (12, 14),
  (0, 2), (1, 4), (5, 6), (7, 13), (8, 9), (10, 12), (11, 14), (15, 16), (0, 3), (2, 5),
  (6, 11), (7, 10), (9, 13), (12, 15), (14, 16), (0, 1), (3, 4), (5, 10), (6, 9), (7, 8),
  (11, 15), (13, 14), (1, 2), (3, 7), (4, 8), (6, 12), (11, 13), (14, 15), (1, 3), (2, 7),
  (4, 5), (9, 11), (10, 12), (13, 14), (2, 3), (4, 6), (5, 7), (8, 10), (3, 4), (6, 8), (7, 9),
  (10, 12), (5, 6), (7, 8), (9, 10), (11, 12), (4, 5), (6, 7), (8, 9), (10, 11), (12, 13)]

/-- detail/sorting_network/sort18.h 27-103. -/
def net18 : List (Nat × Nat) := [
  (0, 1), (2, 3), (4, 5), (6, 7), (8, 9), (10, 11), (12, 13), (14, 15), (16, 17), (0, 2),
  (1, 3), (4, 12), (5, 13), (6, 8), (9, 11), (14, 16), (15, 17), (0, 14), (1, 16), (2, 15),
  (3, 17), (0, 6), (1, 10), (2, 9), (7, 16), (8, 15), (11, 17), (1, 4), (3, 9), (5, 7),
  (8, 14), (10, 12), (13, 16), (0, 1), (2, 5), (3, 13), (4, 14), (7, 9), (8, 10), (12, 15),
  (16, 17), (1, 2), (3, 5), (4, 6), (11, 13), (12, 14), (15, 16), (4, 8), (5, 12), (6, 10),
  (7, 11), (9, 13), (1, 4), (2, 8), (3, 6), (5, 7), (9, 15), (10, 12), (11, 14), (13, 16),
  (2, 4), (5, 8), (6, 10), (7, 11), (9, 12), (13, 15), (3, 5), (6, 8), (7, 10), (9, 11),
  (12, 14), (3, 4), (5, 6), (7, 8), (9, 10), (11, 12), (13, 14)]

/-- detail/sorting_network/sort18.h 111-124. -/
def netPairs18 : List (Nat × Nat) := [
  (0, 1), (2, 3), (4, 5), (6, 7), (8, 9), (10, 11), (12, 13), (14, 15), (16, 17), (0, 2),
  (1, 3), (4, 12), (5, 13), (6, 8), (9, 11), (14, 16), (15, 17), (0, 14), (1, 16), (2, 15),
  (3, 17), (0, 6), (1, 10), (2, 9), (7, 16), (8, 15), (11, 17), (1, 4), (3, 9), (5, 7),
  (8, 14), (10, 12), (13, 16), (0, 1), (2, 5), (3, 13), (4, 14), (7, 9), (8, 10), (12, 15),
  (16, 17), (1, 2), (3, 5), (4, 6), (11, 13), (12, 14), (15, 16), (4, 8), (5, 12), (6, 10),
  (7, 11), (9, 13), (1, 4), (2, 8), (3, 6), (5, 7), (9, 15), (10, 12), (11, 14), (13, 16),
  (2, 4), (5, 8), (6, 10), (7, 11), (9, 12), (13, 15), (3, 5), (6, 8), (7, 10), (9, 11),
  (12, 14), (3, 4), (5, 6), (7, 8), (9, 10), (11, 12), (13, 14)]

/-- detail/sorting_network/sort19.h 27-111. -/
def net19 : List (Nat × Nat) := [
  (0, 12), (1, 4), (2, 8), (3, 5), (6, 17), (7, 11), (9, 14), (10, 13), (15, 16), (0, 2),
  (1, 7), (3, 6), (4, 11), (5, 17), (8, 12), (10, 15), (13, 16), (14, 18), (3, 10), (4, 14),
  (5, 15), (6, 13), (7, 9), (11, 17), (16, 18), (0, 7), (1, 10), (4, 6), (9, 15), (11, 16),
  (12, 17), (13, 14), (0, 3), (2, 6), (5, 7), (8, 11), (12, 16), (1, 8), (2, 9), (3, 4),
  (6, 15), (7, 13), (10, 11), (12, 18), (1, 3), (2, 5), (6, 9), (7, 12), (8, 10), (11, 14),
  (17, 18), (0, 1), (2, 3), (4, 8), (6, 10), (9, 12), (14, 15), (16, 17), (1, 2), (5, 8),
  (6, 7), (9, 11), (10, 13), (14, 16), (15, 17), (3, 6), (4, 5), (7, 9), (8, 10), (11, 12),
  (13, 14), (15, 16), (3, 4), (5, 6), (7, 8), (9, 10), (11, 13), (12, 14), (2, 3), (4, 5),
  (6, 7), (8, 9), (10, 11), (12, 13), (14, 15)]

/-- detail/sorting_network/sort19.h 119-132. -/
def netPairs19 : List (Nat × Nat) := [
  (0, 12), (1, 4), (2, 8), (3, 5), (6, 17), (7, 11), (9, 14), (10, 13), (15, 16), (0, 2),
  (1, 7), (3, 6), (4, 11), (5, 17), (8, 12), (10, 15), (13, 16), (14, 18), (3, 10), (4, 14),
  (5, 15), (6, 13), (7, 9), (11, 17), (16, 18), (0, 7), (1, 10), (4, 6), (9, 15), (11, 16),
  (12, 17), (13, 14), (0, 3), (2, 6), (5, 7), (8, 11), (12, 16), (1, 8), (2, 9), (3, 4),
  (6, 15), (7, 13), (10, 11), (12, 18), (1, 3), (2, 5), (6, 9), (7, 12), (8, 10), (11, 14),
  (17, 18), (0, 1), (2, 3), (4, 8), (6, 10), (9, 12), (14, 15), (16, 17), (1, 2), (5, 8),
  (6, 7), (9, 11), (10, 13), (14, 16), (15, 17), (3, 6), (4, 5), (7, 9), (8, 10), (11, 12),
  (13, 14), (15, 16), (3, 4), (5, 6), (7, 8), (9, 10), (11, 13), (12, 14), (2, 3), (4, 5),
  (6, 7), (8, 9), (10, 11), (12, 13), (14, 15)]

/-- detail/sorting_network/sort20.h 27-117. -/
def net20 : List (Nat × Nat) := [
  (0, 3), (1, 7), (2, 5), (4, 8), (6, 9), (10, 13), (11, 15), (12, 18), (14, 17), (16, 19),
  (0, 14), (1, 11), (2, 16), (3, 17), (4, 12), (5, 19), (6, 10), (7, 15), (8, 18), (9, 13),
  (0, 4), (1, 2), (3, 8), (5, 7), (11, 16), (12, 14), (15, 19), (17, 18), (1, 6), (2, 12),
  (3, 5), (4, 11), (7, 17), (8, 15), (13, 18), (14, 16), (0, 1), (2, 6), (7, 10), (9, 12),
  (13, 17), (18, 19), (1, 6), (5, 9), (7, 11), (8, 12), (10, 14), (13, 18), (3, 5), (4, 7),
  (8, 10), (9, 11), (12, 15), (14, 16), (1, 3), (2, 4), (5, 7), (6, 10), (9, 13), (12, 14),
  (15, 17), (16, 18), (1, 2), (3, 4), (6, 7), (8, 9), (10, 11), (12, 13), (15, 16), (17, 18),
  (2, 3), (4, 6), (5, 8), (7, 9), (10, 12), (11, 14), (13, 15), (16, 17), (4, 5), (6, 8),
  (7, 10), (9, 12), (11, 13), (14, 15), (3, 4), (5, 6), (7, 8), (9, 10), (11, 12), (13, 14),
  (15, 16)]

/-- detail/sorting_network/sort20.h 125-138. -/
def netPairs20 : List (Nat × Nat) := [
  (0, 3), (1, 7), (2, 5), (4, 8), (6, 9), (10, 13), (11, 15), (12, 18), (14, 17), (16, 19),
  (0, 14), (1, 11), (2, 16), (3, 17), (4, 12), (5, 19), (6, 10), (7, 15), (8, 18), (9, 13),
  (0, 4), (1, 2), (3, 8), (5, 7), (11, 16), (12, 14), (15, 19), (17, 18), (1, 6), (2, 12),
  (3, 5), (4, 11), (7, 17), (8, 15), (13, 18), (14, 16), (0, 1), (2, 6), (7, 10), (9, 12),
  (13, 17), (18, 19), (1, 6), (5, 9), (7, 11), (8, 12), (10, 14), (13, 18), (3, 5), (4, 7),
  (8, 10), (9, 11), (12, 15), (14, 16), (1, 3), (2, 4), (5, 7), (6, 10), (9, 13), (12, 14),
  (15, 17), (16, 18), (1, 2), (3, 4), (6, 7), (8, 9), (10, 11), (12, 13), (15, 16), (17, 18),
  (2, 3), (4, 6), (5, 8), (7, 9), (10, 12), (11, 14), (13, 15), (16, 17), (4, 5), (6, 8),
  (7, 10), (9, 12), (11, 13), (14, 15), (3, 4), (5, 6), (7, 8), (9, 10), (11, 12), (13, 14),
  (15, 16)]

end CppSort
