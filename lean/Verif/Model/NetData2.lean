set_option autoImplicit false
/-
Sorting networks for 21 to 32 elements, transcribed from detail/sorting_network/sortN.h.
`netN` is the sequence of compare-exchanges of `operator()`, `netPairsN` the table of `index_pairs()`.
-/
namespace CppSort

/-- detail/sorting_network/sort21.h 27-125. -/
def net21 : List (Nat × Nat) := [
  (0, 1), (2, 3), (4, 5), (6, 7), (8, 9), (10, 11), (12, 13), (14, 15), (16, 17), (18, 19),
  (0, 2), (1, 3), (4, 6), (5, 7), (8, 10), (9, 11), (12, 14), (13, 15), (16, 18), (17, 19),
  (0, 8), (1, 9), (2, 10), (3, 11), (4, 12), (5, 13), (6, 14), (7, 15), (0, 4), (1, 5), (3, 7),
  (6, 20), (8, 12), (9, 13), (10, 14), (15, 19), (2, 6), (3, 18), (7, 20), (2, 16), (3, 6),
  (5, 18), (7, 17), (11, 20), (0, 2), (3, 8), (6, 12), (7, 10), (9, 16), (11, 15), (13, 17),
  (14, 18), (19, 20), (1, 7), (2, 3), (4, 9), (10, 11), (13, 16), (15, 18), (17, 19), (1, 4),
  (5, 10), (6, 13), (7, 8), (11, 14), (12, 16), (15, 17), (18, 19), (1, 2), (3, 4), (5, 6),
  (10, 12), (11, 13), (14, 16), (17, 18), (2, 3), (4, 5), (6, 9), (10, 11), (12, 13), (14, 15),
  (16, 17), (6, 7), (8, 9), (15, 16), (4, 6), (7, 8), (9, 12), (13, 15), (3, 4), (5, 7),
  (8, 10), (9, 11), (12, 14), (5, 6), (7, 8), (9, 10), (11, 12), (13, 14)]

/-- detail/sorting_network/sort21.h 133-149. -/
def netPairs21 : List (Nat × Nat) := [
  (0, 1), (2, 3), (4, 5), (6, 7), (8, 9), (10, 11), (12, 13), (14, 15), (16, 17), (18, 19),
  (0, 2), (1, 3), (4, 6), (5, 7), (8, 10), (9, 11), (12, 14), (13, 15), (16, 18), (17, 19),
  (0, 8), (1, 9), (2, 10), (3, 11), (4, 12), (5, 13), (6, 14), (7, 15), (0, 4), (1, 5), (3, 7),
  (6, 20), (8, 12), (9, 13), (10, 14), (15, 19), (2, 6), (3, 18), (7, 20), (2, 16), (3, 6),
  (5, 18), (7, 17), (11, 20), (0, 2), (3, 8), (6, 12), (7, 10), (9, 16), (11, 15), (13, 17),
  (14, 18), (19, 20), (1, 7), (2, 3), (4, 9), (10, 11), (13, 16), (15, 18), (17, 19), (1, 4),
  (5, 10), (6, 13), (7, 8), (11, 14), (12, 16), (15, 17), (18, 19), (1, 2), (3, 4), (5, 6),
  (10, 12), (11, 13), (14, 16), (17, 18), (2, 3), (4, 5), (6, 9), (10, 11), (12, 13), (14, 15),
  (16, 17), (6, 7), (8, 9), (15, 16), (4, 6), (7, 8), (9, 12), (13, 15), (3, 4), (5, 7),
  (8, 10), (9, 11), (12, 14), (5, 6), (7, 8), (9, 10), (11, 12), (13, 14)]

/-- detail/sorting_network/sort22.h 27-132. -/
def net22 : List (Nat × Nat) := [
  (0, 1), (2, 3), (4, 5), (6, 7), (8, 9), (10, 11), (12, 13), (14, 15), (16, 17), (18, 19),
  (20, 21), (0, 2), (1, 3), (4, 6), (5, 7), (8, 12), (9, 13), (14, 16), (15, 17), (18, 20),
  (19, 21), (0, 4), (1, 5), (2, 6), (3, 7), (8, 10), (9, 12), (11, 13), (14, 18), (15, 19),
  (16, 20), (17, 21), (0, 14), (1, 15), (2, 18), (3, 19), (4, 16), (5, 17), (6, 20), (7, 21),
  (9, 11), (10, 12), (2, 8), (3, 11), (6, 9), (10, 18), (12, 15), (13, 19), (0, 2), (1, 10),
  (3, 16), (5, 18), (6, 14), (7, 15), (8, 12), (9, 13), (11, 20), (19, 21), (2, 6), (3, 10),
  (4, 8), (5, 12), (9, 16), (11, 18), (13, 17), (15, 19), (1, 4), (7, 13), (8, 14), (9, 12),
  (17, 20), (1, 2), (3, 8), (4, 6), (7, 11), (10, 14), (13, 18), (15, 17), (19, 20), (2, 4),
  (5, 10), (7, 9), (11, 16), (12, 14), (17, 19), (5, 6), (7, 8), (9, 11), (10, 12), (13, 14),
  (15, 16), (3, 5), (6, 7), (8, 10), (9, 12), (11, 13), (14, 15), (16, 18), (3, 4), (5, 6),
  (7, 8), (9, 10), (11, 12), (13, 14), (15, 16), (17, 18)]

/-- detail/sorting_network/sort22.h 140-154. -/
def netPairs22 : List (Nat × Nat) := [
  (0, 1), (2, 3), (4, 5), (6, 7), (8, 9), (10, 11), (12, 13), (14, 15), (16, 17), (18, 19),
  (20, 21), (0, 2), (1, 3), (4, 6), (5, 7), (8, 12), (9, 13), (14, 16), (15, 17), (18, 20),
  (19, 21), (0, 4), (1, 5), (2, 6), (3, 7), (8, 10), (9, 12), (11, 13), (14, 18), (15, 19),
  (16, 20), (17, 21), (0, 14), (1, 15), (2, 18), (3, 19), (4, 16), (5, 17), (6, 20), (7, 21),
  (9, 11), (10, 12), (2, 8), (3, 11), (6, 9), (10, 18), (12, 15), (13, 19), (0, 2), (1, 10),
  (3, 16), (5, 18), (6, 14), (7, 15), (8, 12), (9, 13), (11, 20), (19, 21), (2, 6), (3, 10),
  (4, 8), (5, 12), (9, 16), (11, 18), (13, 17), (15, 19), (1, 4), (7, 13), (8, 14), (9, 12),
  (17, 20), (1, 2), (3, 8), (4, 6), (7, 11), (10, 14), (13, 18), (15, 17), (19, 20), (2, 4),
  (5, 10), (7, 9), (11, 16), (12, 14), (17, 19), (5, 6), (7, 8), (9, 11), (10, 12), (13, 14),
  (15, 16), (3, 5), (6, 7), (8, 10), (9, 12), (11, 13), (14, 15), (16, 18), (3, 4), (5, 6),
  (7, 8), (9, 10), (11, 12), (13, 14), (15, 16), (17, 18)]

/-- detail/sorting_network/sort23.h 27-140. -/
def net23 : List (Nat × Nat) := [
  (0, 1), (2, 3), (4, 5), (6, 7), (8, 9), (10, 11), (12, 13), (14, 15), (16, 17), (18, 19),
  (20, 21), (0, 2), (1, 3), (4, 6), (5, 7), (8, 10), (9, 11), (12, 14), (13, 15), (16, 18),
  (17, 19), (21, 22), (0, 4), (1, 5), (2, 6), (3, 7), (8, 12), (9, 13), (10, 14), (11, 15),
  (17, 21), (18, 20), (19, 22), (0, 8), (1, 9), (2, 10), (3, 11), (4, 12), (5, 13), (6, 14),
  (7, 15), (1, 2), (5, 18), (7, 19), (9, 16), (10, 21), (12, 20), (15, 22), (5, 9), (6, 7),
  (10, 18), (11, 21), (12, 17), (13, 20), (14, 15), (3, 17), (6, 16), (7, 14), (8, 12),
  (15, 19), (20, 21), (3, 4), (5, 8), (6, 10), (9, 12), (13, 16), (14, 15), (17, 18), (19, 21),
  (0, 5), (1, 8), (2, 12), (3, 9), (4, 10), (7, 13), (11, 17), (14, 16), (18, 20), (2, 6),
  (3, 5), (4, 8), (7, 11), (10, 12), (13, 18), (14, 17), (15, 20), (1, 3), (2, 5), (6, 9),
  (7, 10), (11, 13), (12, 14), (15, 18), (16, 17), (19, 20), (2, 3), (4, 6), (8, 9), (11, 12),
  (13, 14), (15, 16), (17, 19), (3, 4), (5, 6), (7, 8), (9, 10), (12, 13), (14, 15), (17, 18),
  (4, 5), (6, 7), (8, 9), (10, 11), (16, 17)]

/-- detail/sorting_network/sort23.h 148-163. -/
def netPairs23 : List (Nat × Nat) := [
  (0, 1), (2, 3), (4, 5), (6, 7), (8, 9), (10, 11), (12, 13), (14, 15), (16, 17), (18, 19),
  (20, 21), (0, 2), (1, 3), (4, 6), (5, 7), (8, 10), (9, 11), (12, 14), (13, 15), (16, 18),
  (17, 19), (21, 22), (0, 4), (1, 5), (2, 6), (3, 7), (8, 12), (9, 13), (10, 14), (11, 15),
  (17, 21), (18, 20), (19, 22), (0, 8), (1, 9), (2, 10), (3, 11), (4, 12), (5, 13), (6, 14),
  (7, 15), (1, 2), (5, 18), (7, 19), (9, 16), (10, 21), (12, 20), (15, 22), (5, 9), (6, 7),
  (10, 18), (11, 21), (12, 17), (13, 20), (14, 15), (3, 17), (6, 16), (7, 14), (8, 12),
  (15, 19), (20, 21), (3, 4), (5, 8), (6, 10), (9, 12), (13, 16), (14, 15), (17, 18), (19, 21),
  (0, 5), (1, 8), (2, 12), (3, 9), (4, 10), (7, 13), (11, 17), (14, 16), (18, 20), (2, 6),
  (3, 5), (4, 8), (7, 11), (10, 12), (13, 18), (14, 17), (15, 20), (1, 3), (2, 5), (6, 9),
  (7, 10), (11, 13), (12, 14), (15, 18), (16, 17), (19, 20), (2, 3), (4, 6), (8, 9), (11, 12),
  (13, 14), (15, 16), (17, 19), (3, 4), (5, 6), (7, 8), (9, 10), (12, 13), (14, 15), (17, 18),
  (4, 5), (6, 7), (8, 9), (10, 11), (16, 17)]

/-- detail/sorting_network/sort24.h 27-146. -/
def net24 : List (Nat × Nat) := [
  (0, 20), (1, 12), (2, 16), (3, 23), (4, 6), (5, 10), (7, 21), (8, 14), (9, 15), (11, 22),
  (13, 18), (17, 19), (0, 3), (1, 11), (2, 7), (4, 17), (5, 13), (6, 19), (8, 9), (10, 18),
  (12, 22), (14, 15), (16, 21), (20, 23), (0, 1), (2, 4), (3, 12), (5, 8), (6, 9), (7, 10),
  (11, 20), (13, 16), (14, 17), (15, 18), (19, 21), (22, 23), (2, 5), (4, 8), (6, 11), (7, 14),
  (9, 16), (12, 17), (15, 19), (18, 21), (1, 8), (3, 14), (4, 7), (9, 20), (10, 12), (11, 13),
  (15, 22), (16, 19), (0, 7), (1, 5), (3, 4), (6, 11), (8, 15), (9, 14), (10, 13), (12, 17),
  (16, 23), (18, 22), (19, 20), (0, 2), (1, 6), (4, 7), (5, 9), (8, 10), (13, 15), (14, 18),
  (16, 19), (17, 22), (21, 23), (2, 3), (4, 5), (6, 8), (7, 9), (10, 11), (12, 13), (14, 16),
  (15, 17), (18, 19), (20, 21), (1, 2), (3, 6), (4, 10), (7, 8), (9, 11), (12, 14), (13, 19),
  (15, 16), (17, 20), (21, 22), (2, 3), (5, 10), (6, 7), (8, 9), (13, 18), (14, 15), (16, 17),
  (20, 21), (3, 4), (5, 7), (10, 12), (11, 13), (16, 18), (19, 20), (4, 6), (8, 10), (9, 12),
  (11, 14), (13, 15), (17, 19), (5, 6), (7, 8), (9, 10), (11, 12), (13, 14), (15, 16),
  (17, 18)]

/-- detail/sorting_network/sort24.h 154-168. -/
def netPairs24 : List (Nat × Nat) := [
  (0, 20), (1, 12), (2, 16), (3, 23), (4, 6), (5, 10), (7, 21), (8, 14), (9, 15), (11, 22),
  (13, 18), (17, 19), (0, 3), (1, 11), (2, 7), (4, 17), (5, 13), (6, 19), (8, 9), (10, 18),
  (12, 22), (14, 15), (16, 21), (20, 23), (0, 1), (2, 4), (3, 12), (5, 8), (6, 9), (7, 10),
  (11, 20), (13, 16), (14, 17), (15, 18), (19, 21), (22, 23), (2, 5), (4, 8), (6, 11), (7, 14),
  (9, 16), (12, 17), (15, 19), (18, 21), (1, 8), (3, 14), (4, 7), (9, 20), (10, 12), (11, 13),
  (15, 22), (16, 19), (0, 7), (1, 5), (3, 4), (6, 11), (8, 15), (9, 14), (10, 13), (12, 17),
  (16, 23), (18, 22), (19, 20), (0, 2), (1, 6), (4, 7), (5, 9), (8, 10), (13, 15), (14, 18),
  (16, 19), (17, 22), (21, 23), (2, 3), (4, 5), (6, 8), (7, 9), (10, 11), (12, 13), (14, 16),
  (15, 17), (18, 19), (20, 21), (1, 2), (3, 6), (4, 10), (7, 8), (9, 11), (12, 14), (13, 19),
  (15, 16), (17, 20), (21, 22), (2, 3), (5, 10), (6, 7), (8, 9), (13, 18), (14, 15), (16, 17),
  (20, 21), (3, 4), (5, 7), (10, 12), (11, 13), (16, 18), (19, 20), (4, 6), (8, 10), (9, 12),
  (11, 14), (13, 15), (17, 19), (5, 6), (7, 8), (9, 10), (11, 12), (13, 14), (15, 16),
  (17, 18)]

/-- detail/sorting_network/sort25.h 27-156. -/
def net25 : List (Nat × Nat) := [
  (0, 1), (2, 3), (4, 5), (6, 7), (8, 9), (10, 11), (12, 13), (14, 15), (16, 17), (18, 19),
  (20, 21), (22, 23), (0, 2), (1, 3), (4, 6), (5, 7), (8, 10), (9, 11), (12, 14), (13, 15),
  (16, 18), (17, 19), (21, 22), (23, 24), (0, 4), (1, 5), (2, 6), (3, 7), (8, 12), (9, 13),
  (10, 14), (11, 15), (18, 21), (20, 23), (22, 24), (0, 8), (1, 9), (2, 10), (3, 11), (4, 12),
  (5, 13), (6, 14), (7, 15), (16, 20), (17, 22), (19, 24), (21, 23), (1, 18), (3, 21), (5, 23),
  (6, 19), (11, 14), (15, 24), (1, 16), (3, 17), (6, 9), (7, 11), (13, 19), (14, 23), (0, 1),
  (2, 16), (3, 8), (7, 20), (10, 13), (11, 22), (15, 23), (1, 2), (5, 10), (7, 18), (11, 21),
  (15, 20), (19, 22), (4, 7), (5, 6), (9, 18), (10, 17), (11, 12), (13, 21), (14, 15),
  (19, 20), (22, 23), (3, 4), (7, 8), (9, 10), (11, 16), (12, 17), (13, 18), (19, 21),
  (20, 22), (1, 3), (2, 4), (5, 11), (6, 16), (7, 9), (8, 10), (12, 13), (14, 19), (15, 18),
  (2, 3), (5, 7), (6, 9), (8, 11), (10, 16), (12, 14), (15, 17), (3, 5), (4, 6), (7, 8),
  (9, 11), (10, 12), (13, 14), (15, 16), (17, 18), (4, 7), (6, 8), (9, 10), (11, 12), (13, 15),
  (14, 16), (17, 19), (18, 21), (4, 5), (6, 7), (8, 9), (10, 11), (12, 13), (14, 15), (16, 17),
  (18, 19), (20, 21)]

/-- detail/sorting_network/sort25.h 164-180. -/
def netPairs25 : List (Nat × Nat) := [
  (0, 1), (2, 3), (4, 5), (6, 7), (8, 9), (10, 11), (12, 13), (14, 15), (16, 17), (18, 19),
  (20, 21), (22, 23), (0, 2), (1, 3), (4, 6), (5, 7), (8, 10), (9, 11), (12, 14), (13, 15),
  (16, 18), (17, 19), (21, 22), (23, 24), (0, 4), (1, 5), (2, 6), (3, 7), (8, 12), (9, 13),
  (10, 14), (11, 15), (18, 21), (20, 23), (22, 24), (0, 8), (1, 9), (2, 10), (3, 11), (4, 12),
  (5, 13), (6, 14), (7, 15), (16, 20), (17, 22), (19, 24), (21, 23), (1, 18), (3, 21), (5, 23),
  (6, 19), (11, 14), (15, 24), (1, 16), (3, 17), (6, 9), (7, 11), (13, 19), (14, 23), (0, 1),
  (2, 16), (3, 8), (7, 20), (10, 13), (11, 22), (15, 23), (1, 2), (5, 10), (7, 18), (11, 21),
  (15, 20), (19, 22), (4, 7), (5, 6), (9, 18), (10, 17), (11, 12), (13, 21), (14, 15),
  (19, 20), (22, 23), (3, 4), (7, 8), (9, 10), (11, 16), (12, 17), (13, 18), (19, 21),
  (20, 22), (1, 3), (2, 4), (5, 11), (6, 16), (7, 9), (8, 10), (12, 13), (14, 19), (15, 18),
  (2, 3), (5, 7), (6, 9), (8, 11), (10, 16), (12, 14), (15, 17), (3, 5), (4, 6), (7, 8),
  (9, 11), (10, 12), (13, 14), (15, 16), (17, 18), (4, 7), (6, 8), (9, 10), (11, 12), (13, 15),
  (14, 16), (17, 19), (18, 21), (4, 5), (6, 7), (8, 9), (10, 11), (12, 13), (14, 15), (16, 17),
  (18, 19), (20, 21)]

/-- detail/sorting_network/sort26.h 27-165. -/
def net26 : List (Nat × Nat) := [
  (0, 1), (2, 3), (4, 21), (5, 6), (7, 8), (9, 10), (11, 12), (13, 14), (15, 16), (17, 18),
  (19, 20), (22, 23), (24, 25), (0, 24), (1, 25), (3, 21), (4, 22), (5, 7), (6, 8), (9, 11),
  (10, 12), (13, 15), (14, 16), (17, 19), (18, 20), (0, 4), (2, 22), (3, 23), (5, 9), (6, 10),
  (7, 11), (8, 12), (13, 17), (14, 18), (15, 19), (16, 20), (21, 25), (0, 2), (1, 3), (4, 21),
  (5, 13), (6, 14), (7, 15), (8, 16), (9, 17), (10, 18), (11, 19), (12, 20), (22, 24),
  (23, 25), (0, 5), (1, 7), (2, 4), (3, 10), (15, 22), (18, 24), (20, 25), (21, 23), (2, 9),
  (3, 7), (4, 14), (5, 13), (6, 15), (10, 19), (11, 21), (12, 20), (16, 23), (18, 22), (1, 5),
  (2, 6), (3, 15), (7, 17), (8, 18), (10, 22), (11, 13), (12, 14), (19, 23), (20, 24), (1, 2),
  (4, 7), (5, 11), (8, 9), (10, 12), (13, 15), (14, 20), (16, 17), (18, 21), (23, 24), (3, 8),
  (4, 6), (7, 16), (9, 18), (10, 13), (12, 15), (17, 22), (19, 21), (4, 5), (6, 11), (7, 9),
  (14, 19), (16, 18), (20, 21), (2, 4), (3, 6), (7, 10), (8, 11), (9, 12), (13, 16), (14, 17),
  (15, 18), (19, 22), (21, 23), (3, 4), (5, 8), (6, 7), (9, 10), (11, 13), (12, 14), (15, 16),
  (17, 20), (18, 19), (21, 22), (5, 6), (7, 8), (9, 11), (10, 13), (12, 15), (14, 16),
  (17, 18), (19, 20), (4, 5), (6, 7), (8, 9), (10, 11), (12, 13), (14, 15), (16, 17), (18, 19),
  (20, 21)]

/-- detail/sorting_network/sort26.h 173-188. -/
def netPairs26 : List (Nat × Nat) := [
  (0, 1), (2, 3), (4, 21), (5, 6), (7, 8), (9, 10), (11, 12), (13, 14), (15, 16), (17, 18),
  (19, 20), (22, 23), (24, 25), (0, 24), (1, 25), (3, 21), (4, 22), (5, 7), (6, 8), (9, 11),
  (10, 12), (13, 15), (14, 16), (17, 19), (18, 20), (0, 4), (2, 22), (3, 23), (5, 9), (6, 10),
  (7, 11), (8, 12), (13, 17), (14, 18), (15, 19), (16, 20), (21, 25), (0, 2), (1, 3), (4, 21),
  (5, 13), (6, 14), (7, 15), (8, 16), (9, 17), (10, 18), (11, 19), (12, 20), (22, 24),
  (23, 25), (0, 5), (1, 7), (2, 4), (3, 10), (15, 22), (18, 24), (20, 25), (21, 23), (2, 9),
  (3, 7), (4, 14), (5, 13), (6, 15), (10, 19), (11, 21), (12, 20), (16, 23), (18, 22), (1, 5),
  (2, 6), (3, 15), (7, 17), (8, 18), (10, 22), (11, 13), (12, 14), (19, 23), (20, 24), (1, 2),
  (4, 7), (5, 11), (8, 9), (10, 12), (13, 15), (14, 20), (16, 17), (18, 21), (23, 24), (3, 8),
  (4, 6), (7, 16), (9, 18), (10, 13), (12, 15), (17, 22), (19, 21), (4, 5), (6, 11), (7, 9),
  (14, 19), (16, 18), (20, 21), (2, 4), (3, 6), (7, 10), (8, 11), (9, 12), (13, 16), (14, 17),
  (15, 18), (19, 22), (21, 23), (3, 4), (5, 8), (6, 7), (9, 10), (11, 13), (12, 14), (15, 16),
  (17, 20), (18, 19), (21, 22), (5, 6), (7, 8), (9, 11), (10, 13), (12, 15), (14, 16),
  (17, 18), (19, 20), (4, 5), (6, 7), (8, 9), (10, 11), (12, 13), (14, 15), (16, 17), (18, 19),
  (20, 21)]

/-- detail/sorting_network/sort27.h 27-173. -/
def net27 : List (Nat × Nat) := [
  (0, 1), (2, 3), (4, 5), (6, 7), (8, 9), (10, 11), (12, 14), (15, 16), (17, 18), (19, 20),
  (21, 22), (23, 24), (25, 26), (0, 2), (1, 3), (4, 6), (5, 7), (8, 10), (9, 11), (12, 13),
  (15, 17), (16, 18), (19, 21), (20, 22), (23, 25), (24, 26), (0, 23), (1, 24), (2, 25),
  (3, 26), (4, 8), (5, 9), (6, 10), (7, 11), (13, 14), (15, 19), (16, 20), (17, 21), (18, 22),
  (0, 4), (1, 6), (2, 19), (3, 20), (5, 13), (9, 21), (11, 14), (12, 16), (17, 23), (18, 24),
  (22, 26), (5, 17), (6, 16), (7, 22), (9, 25), (10, 24), (12, 15), (13, 20), (14, 26),
  (1, 12), (4, 15), (7, 23), (10, 19), (11, 16), (13, 18), (20, 24), (22, 25), (0, 1), (6, 12),
  (8, 11), (9, 15), (10, 17), (14, 24), (16, 21), (18, 19), (1, 4), (2, 8), (3, 11), (12, 15),
  (14, 20), (16, 22), (21, 25), (2, 5), (3, 17), (8, 13), (11, 23), (21, 22), (24, 25), (1, 2),
  (3, 10), (5, 6), (7, 13), (11, 15), (14, 21), (18, 23), (20, 22), (4, 5), (6, 9), (7, 8),
  (13, 17), (14, 16), (19, 23), (22, 24), (2, 4), (3, 6), (5, 7), (8, 12), (9, 10), (11, 13),
  (14, 18), (15, 17), (16, 19), (21, 23), (3, 5), (6, 8), (7, 9), (10, 12), (11, 14), (13, 16),
  (15, 18), (17, 19), (20, 21), (22, 23), (5, 6), (8, 11), (9, 10), (12, 14), (13, 15),
  (17, 18), (19, 21), (4, 5), (6, 7), (8, 9), (10, 11), (12, 13), (14, 15), (16, 17), (18, 20),
  (21, 22), (3, 4), (5, 6), (7, 8), (9, 10), (11, 12), (13, 14), (15, 16), (17, 18), (19, 20)]

/-- detail/sorting_network/sort27.h 181-198. -/
def netPairs27 : List (Nat × Nat) := [
  (0, 1), (2, 3), (4, 5), (6, 7), (8, 9), (10, 11), (12, 14), (15, 16), (17, 18), (19, 20),
  (21, 22), (23, 24), (25, 26), (0, 2), (1, 3), (4, 6), (5, 7), (8, 10), (9, 11), (12, 13),
  (15, 17), (16, 18), (19, 21), (20, 22), (23, 25), (24, 26), (0, 23), (1, 24), (2, 25),
  (3, 26), (4, 8), (5, 9), (6, 10), (7, 11), (13, 14), (15, 19), (16, 20), (17, 21), (18, 22),
  (0, 4), (1, 6), (2, 19), (3, 20), (5, 13), (9, 21), (11, 14), (12, 16), (17, 23), (18, 24),
  (22, 26), (5, 17), (6, 16), (7, 22), (9, 25), (10, 24), (12, 15), (13, 20), (14, 26),
  (1, 12), (4, 15), (7, 23), (10, 19), (11, 16), (13, 18), (20, 24), (22, 25), (0, 1), (6, 12),
  (8, 11), (9, 15), (10, 17), (14, 24), (16, 21), (18, 19), (1, 4), (2, 8), (3, 11), (12, 15),
  (14, 20), (16, 22), (21, 25), (2, 5), (3, 17), (8, 13), (11, 23), (21, 22), (24, 25), (1, 2),
  (3, 10), (5, 6), (7, 13), (11, 15), (14, 21), (18, 23), (20, 22), (4, 5), (6, 9), (7, 8),
  (13, 17), (14, 16), (19, 23), (22, 24), (2, 4), (3, 6), (5, 7), (8, 12), (9, 10), (11, 13),
  (14, 18), (15, 17), (16, 19), (21, 23), (3, 5), (6, 8), (7, 9), (10, 12), (11, 14), (13, 16),
  (15, 18), (17, 19), (20, 21), (22, 23), (5, 6), (8, 11), (9, 10), (12, 14), (13, 15),
  (17, 18), (19, 21), (4, 5), (6, 7), (8, 9), (10, 11), (12, 13), (14, 15), (16, 17), (18, 20),
  (21, 22), (3, 4), (5, 6), (7, 8), (9, 10), (11, 12), (13, 14), (15, 16), (17, 18), (19, 20)]

/-- detail/sorting_network/sort28.h 27-181. -/
def net28 : List (Nat × Nat) := [
  (0, 1), (2, 3), (4, 5), (6, 7), (8, 9), (10, 11), (12, 13), (14, 15), (16, 17), (18, 19),
  (20, 21), (22, 23), (24, 25), (26, 27), (0, 2), (1, 3), (4, 6), (5, 7), (8, 10), (9, 11),
  (12, 14), (13, 15), (16, 18), (17, 19), (20, 22), (21, 23), (24, 26), (25, 27), (0, 4),
  (1, 5), (2, 6), (3, 7), (8, 12), (9, 13), (14, 18), (15, 19), (20, 24), (21, 25), (22, 26),
  (23, 27), (0, 20), (1, 21), (2, 22), (3, 23), (4, 24), (5, 25), (6, 26), (7, 27), (9, 17),
  (10, 18), (11, 15), (12, 16), (1, 2), (4, 20), (5, 6), (7, 23), (8, 12), (9, 16), (10, 14),
  (11, 18), (13, 17), (15, 19), (21, 22), (25, 26), (0, 8), (1, 9), (2, 12), (3, 5), (4, 10),
  (6, 16), (7, 13), (11, 21), (14, 20), (15, 25), (17, 23), (18, 26), (19, 27), (22, 24),
  (2, 4), (3, 7), (5, 17), (8, 14), (9, 11), (10, 22), (13, 19), (16, 18), (20, 24), (23, 25),
  (1, 8), (3, 9), (5, 11), (6, 10), (7, 15), (12, 20), (16, 22), (17, 21), (18, 24), (19, 26),
  (1, 2), (4, 6), (5, 9), (10, 16), (11, 17), (12, 14), (13, 15), (18, 22), (21, 23), (25, 26),
  (4, 8), (6, 12), (7, 11), (10, 14), (13, 17), (15, 21), (16, 20), (19, 23), (2, 4), (6, 8),
  (7, 16), (9, 14), (10, 12), (11, 20), (13, 18), (15, 17), (19, 21), (23, 25), (3, 10),
  (5, 12), (7, 9), (11, 13), (14, 16), (15, 22), (17, 24), (18, 20), (3, 6), (5, 8), (7, 10),
  (9, 12), (11, 14), (13, 16), (15, 18), (17, 20), (19, 22), (21, 24), (3, 4), (5, 6), (7, 8),
  (9, 10), (11, 12), (13, 14), (15, 16), (17, 18), (19, 20), (21, 22), (23, 24)]

/-- detail/sorting_network/sort28.h 189-204. -/
def netPairs28 : List (Nat × Nat) := [
  (0, 1), (2, 3), (4, 5), (6, 7), (8, 9), (10, 11), (12, 13), (14, 15), (16, 17), (18, 19),
  (20, 21), (22, 23), (24, 25), (26, 27), (0, 2), (1, 3), (4, 6), (5, 7), (8, 10), (9, 11),
  (12, 14), (13, 15), (16, 18), (17, 19), (20, 22), (21, 23), (24, 26), (25, 27), (0, 4),
  (1, 5), (2, 6), (3, 7), (8, 12), (9, 13), (14, 18), (15, 19), (20, 24), (21, 25), (22, 26),
  (23, 27), (0, 20), (1, 21), (2, 22), (3, 23), (4, 24), (5, 25), (6, 26), (7, 27), (9, 17),
  (10, 18), (11, 15), (12, 16), (1, 2), (4, 20), (5, 6), (7, 23), (8, 12), (9, 16), (10, 14),
  (11, 18), (13, 17), (15, 19), (21, 22), (25, 26), (0, 8), (1, 9), (2, 12), (3, 5), (4, 10),
  (6, 16), (7, 13), (11, 21), (14, 20), (15, 25), (17, 23), (18, 26), (19, 27), (22, 24),
  (2, 4), (3, 7), (5, 17), (8, 14), (9, 11), (10, 22), (13, 19), (16, 18), (20, 24), (23, 25),
  (1, 8), (3, 9), (5, 11), (6, 10), (7, 15), (12, 20), (16, 22), (17, 21), (18, 24), (19, 26),
  (1, 2), (4, 6), (5, 9), (10, 16), (11, 17), (12, 14), (13, 15), (18, 22), (21, 23), (25, 26),
  (4, 8), (6, 12), (7, 11), (10, 14), (13, 17), (15, 21), (16, 20), (19, 23), (2, 4), (6, 8),
  (7, 16), (9, 14), (10, 12), (11, 20), (13, 18), (15, 17), (19, 21), (23, 25), (3, 10),
  (5, 12), (7, 9), (11, 13), (14, 16), (15, 22), (17, 24), (18, 20), (3, 6), (5, 8), (7, 10),
  (9, 12), (11, 14), (13, 16), (15, 18), (17, 20), (19, 22), (21, 24), (3, 4), (5, 6), (7, 8),
  (9, 10), (11, 12), (13, 14), (15, 16), (17, 18), (19, 20), (21, 22), (23, 24)]

/-- detail/sorting_network/sort29.h 27-190. -/
def net29 : List (Nat × Nat) := [
  (0, 1), (2, 3), (4, 5), (6, 7), (8, 9), (10, 11), (12, 13), (14, 15), (16, 28), (17, 26),
  (18, 25), (19, 23), (21, 27), (22, 24), (0, 2), (1, 3), (4, 6), (5, 7), (8, 10), (9, 11),
  (12, 14), (13, 15), (17, 22), (18, 19), (20, 27), (23, 25), (24, 26), (0, 4), (1, 5), (2, 6),
  (3, 7), (8, 12), (9, 13), (10, 14), (11, 15), (16, 20), (17, 18), (19, 22), (23, 24),
  (25, 26), (27, 28), (0, 8), (1, 9), (2, 10), (3, 11), (4, 12), (5, 13), (6, 14), (7, 15),
  (16, 18), (20, 22), (21, 25), (24, 27), (26, 28), (1, 8), (2, 24), (4, 19), (5, 20), (6, 21),
  (7, 27), (9, 18), (10, 23), (11, 26), (13, 22), (14, 25), (15, 28), (16, 17), (0, 6), (2, 4),
  (3, 24), (5, 10), (12, 19), (13, 18), (14, 21), (15, 25), (20, 23), (26, 27), (0, 16),
  (1, 6), (3, 12), (4, 8), (5, 17), (7, 24), (14, 20), (15, 26), (18, 21), (19, 23), (25, 27),
  (1, 5), (2, 16), (3, 10), (6, 9), (7, 18), (8, 17), (11, 19), (13, 14), (15, 22), (21, 23),
  (25, 26), (1, 2), (3, 5), (4, 8), (6, 16), (7, 11), (9, 17), (10, 12), (14, 20), (15, 18),
  (19, 24), (22, 27), (4, 6), (9, 16), (10, 13), (11, 19), (12, 14), (20, 21), (22, 26),
  (23, 24), (2, 4), (3, 6), (7, 16), (8, 9), (11, 17), (15, 19), (18, 23), (24, 25), (3, 4),
  (5, 9), (7, 10), (11, 13), (12, 16), (14, 17), (15, 20), (19, 21), (22, 24), (5, 8), (6, 7),
  (9, 12), (10, 11), (13, 14), (15, 16), (17, 20), (18, 19), (21, 23), (24, 25), (5, 6),
  (7, 8), (9, 10), (11, 12), (13, 15), (14, 16), (17, 18), (19, 20), (21, 22), (4, 5), (6, 7),
  (8, 9), (10, 11), (12, 13), (14, 15), (16, 17), (18, 19), (20, 21), (22, 23)]

/-- detail/sorting_network/sort29.h 198-214. -/
def netPairs29 : List (Nat × Nat) := [
  (0, 1), (2, 3), (4, 5), (6, 7), (8, 9), (10, 11), (12, 13), (14, 15), (16, 28), (17, 26),
  (18, 25), (19, 23), (21, 27), (22, 24), (0, 2), (1, 3), (4, 6), (5, 7), (8, 10), (9, 11),
  (12, 14), (13, 15), (17, 22), (18, 19), (20, 27), (23, 25), (24, 26), (0, 4), (1, 5), (2, 6),
  (3, 7), (8, 12), (9, 13), (10, 14), (11, 15), (16, 20), (17, 18), (19, 22), (23, 24),
  (25, 26), (27, 28), (0, 8), (1, 9), (2, 10), (3, 11), (4, 12), (5, 13), (6, 14), (7, 15),
  (16, 18), (20, 22), (21, 25), (24, 27), (26, 28), (1, 8), (2, 24), (4, 19), (5, 20), (6, 21),
  (7, 27), (9, 18), (10, 23), (11, 26), (13, 22), (14, 25), (15, 28), (16, 17), (0, 6), (2, 4),
  (3, 24), (5, 10), (12, 19), (13, 18), (14, 21), (15, 25), (20, 23), (26, 27), (0, 16),
  (1, 6), (3, 12), (4, 8), (5, 17), (7, 24), (14, 20), (15, 26), (18, 21), (19, 23), (25, 27),
  (1, 5), (2, 16), (3, 10), (6, 9), (7, 18), (8, 17), (11, 19), (13, 14), (15, 22), (21, 23),
  (25, 26), (1, 2), (3, 5), (4, 8), (6, 16), (7, 11), (9, 17), (10, 12), (14, 20), (15, 18),
  (19, 24), (22, 27), (4, 6), (9, 16), (10, 13), (11, 19), (12, 14), (20, 21), (22, 26),
  (23, 24), (2, 4), (3, 6), (7, 16), (8, 9), (11, 17), (15, 19), (18, 23), (24, 25), (3, 4),
  (5, 9), (7, 10), (11, 13), (12, 16), (14, 17), (15, 20), (19, 21), (22, 24), (5, 8), (6, 7),
  (9, 12), (10, 11), (13, 14), (15, 16), (17, 20), (18, 19), (21, 23), (24, 25), (5, 6),
  (7, 8), (9, 10), (11, 12), (13, 15), (14, 16), (17, 18), (19, 20), (21, 22), (4, 5), (6, 7),
  (8, 9), (10, 11), (12, 13), (14, 15), (16, 17), (18, 19), (20, 21), (22, 23)]

/-- detail/sorting_network/sort30.h 27-198. -/
def net30 : List (Nat × Nat) := [
  (0, 1), (2, 3), (4, 5), (6, 7), (8, 9), (10, 11), (12, 13), (14, 15), (16, 17), (18, 19),
  (20, 21), (22, 23), (24, 25), (26, 27), (28, 29), (0, 2), (1, 3), (4, 6), (5, 7), (8, 10),
  (9, 11), (13, 15), (14, 16), (18, 20), (19, 21), (22, 24), (23, 25), (26, 28), (27, 29),
  (0, 4), (1, 5), (2, 6), (3, 7), (8, 14), (9, 17), (10, 16), (12, 20), (13, 19), (15, 21),
  (22, 26), (23, 27), (24, 28), (25, 29), (0, 8), (1, 9), (2, 14), (3, 17), (4, 10), (5, 11),
  (6, 16), (12, 26), (13, 23), (15, 27), (18, 24), (19, 25), (20, 28), (21, 29), (1, 13),
  (2, 12), (3, 15), (4, 18), (5, 19), (6, 20), (7, 21), (8, 22), (9, 23), (10, 24), (11, 25),
  (14, 26), (16, 28), (17, 27), (0, 4), (2, 8), (3, 13), (5, 9), (6, 22), (7, 23), (10, 12),
  (11, 15), (14, 18), (16, 26), (17, 19), (20, 24), (21, 27), (25, 29), (0, 2), (1, 14),
  (3, 5), (4, 8), (9, 13), (11, 17), (12, 18), (15, 28), (16, 20), (21, 25), (24, 26),
  (27, 29), (2, 4), (5, 9), (6, 14), (7, 13), (8, 10), (15, 23), (16, 22), (19, 21), (20, 24),
  (25, 27), (6, 8), (7, 11), (10, 14), (12, 16), (13, 17), (15, 19), (18, 22), (21, 23),
  (4, 6), (7, 9), (8, 10), (11, 13), (12, 14), (15, 17), (16, 18), (19, 21), (20, 22),
  (23, 25), (1, 8), (3, 18), (5, 20), (7, 22), (9, 24), (10, 12), (11, 26), (13, 15), (14, 16),
  (17, 19), (21, 28), (1, 2), (3, 10), (5, 12), (7, 14), (9, 16), (11, 18), (13, 20), (15, 22),
  (17, 24), (19, 26), (27, 28), (2, 4), (3, 6), (5, 8), (7, 10), (9, 12), (11, 14), (13, 16),
  (15, 18), (17, 20), (19, 22), (21, 24), (23, 26), (25, 27), (3, 4), (5, 6), (7, 8), (9, 10),
  (11, 12), (13, 14), (15, 16), (17, 18), (19, 20), (21, 22), (23, 24), (25, 26)]

/-- detail/sorting_network/sort30.h 206-221. -/
def netPairs30 : List (Nat × Nat) := [
  (0, 1), (2, 3), (4, 5), (6, 7), (8, 9), (10, 11), (12, 13), (14, 15), (16, 17), (18, 19),
  (20, 21), (22, 23), (24, 25), (26, 27), (28, 29), (0, 2), (1, 3), (4, 6), (5, 7), (8, 10),
  (9, 11), (13, 15), (14, 16), (18, 20), (19, 21), (22, 24), (23, 25), (26, 28), (27, 29),
  (0, 4), (1, 5), (2, 6), (3, 7), (8, 14), (9, 17), (10, 16), (12, 20), (13, 19), (15, 21),
  (22, 26), (23, 27), (24, 28), (25, 29), (0, 8), (1, 9), (2, 14), (3, 17), (4, 10), (5, 11),
  (6, 16), (12, 26), (13, 23), (15, 27), (18, 24), (19, 25), (20, 28), (21, 29), (1, 13),
  (2, 12), (3, 15), (4, 18), (5, 19), (6, 20), (7, 21), (8, 22), (9, 23), (10, 24), (11, 25),
  (14, 26), (16, 28), (17, 27), (0, 4), (2, 8), (3, 13), (5, 9), (6, 22), (7, 23), (10, 12),
  (11, 15), (14, 18), (16, 26), (17, 19), (20, 24), (21, 27), (25, 29), (0, 2), (1, 14),
  (3, 5), (4, 8), (9, 13), (11, 17), (12, 18), (15, 28), (16, 20), (21, 25), (24, 26),
  (27, 29), (2, 4), (5, 9), (6, 14), (7, 13), (8, 10), (15, 23), (16, 22), (19, 21), (20, 24),
  (25, 27), (6, 8), (7, 11), (10, 14), (12, 16), (13, 17), (15, 19), (18, 22), (21, 23),
  (4, 6), (7, 9), (8, 10), (11, 13), (12, 14), (15, 17), (16, 18), (19, 21), (20, 22),
  (23, 25), (1, 8), (3, 18), (5, 20), (7, 22), (9, 24), (10, 12), (11, 26), (13, 15), (14, 16),
  (17, 19), (21, 28), (1, 2), (3, 10), (5, 12), (7, 14), (9, 16), (11, 18), (13, 20), (15, 22),
  (17, 24), (19, 26), (27, 28), (2, 4), (3, 6), (5, 8), (7, 10), (9, 12), (11, 14), (13, 16),
  (15, 18), (17, 20), (19, 22), (21, 24), (23, 26), (25, 27), (3, 4), (5, 6), (7, 8), (9, 10),
  (11, 12), (13, 14), (15, 16), (17, 18), (19, 20), (21, 22), (23, 24), (25, 26)]

/-- detail/sorting_network/sort31.h 27-206. -/
def net31 : List (Nat × Nat) := [
  (0, 1), (2, 3), (4, 5), (6, 7), (8, 9), (10, 11), (12, 13), (14, 15), (16, 17), (18, 19),
  (20, 21), (22, 23), (24, 25), (26, 27), (28, 29), (0, 2), (1, 3), (4, 6), (5, 7), (8, 10),
  (9, 11), (12, 14), (13, 15), (16, 18), (17, 19), (20, 22), (21, 23), (24, 26), (25, 27),
  (28, 30), (0, 4), (1, 5), (2, 6), (3, 7), (8, 12), (9, 13), (10, 14), (11, 15), (16, 20),
  (17, 21), (18, 22), (19, 23), (24, 28), (25, 29), (26, 30), (0, 8), (1, 9), (2, 10), (3, 11),
  (4, 12), (5, 13), (6, 14), (7, 15), (16, 24), (17, 25), (18, 26), (19, 27), (20, 28),
  (21, 29), (22, 30), (0, 16), (1, 8), (2, 4), (3, 12), (5, 10), (6, 9), (7, 14), (11, 13),
  (17, 24), (18, 20), (19, 28), (21, 26), (22, 25), (23, 30), (27, 29), (1, 2), (3, 5), (4, 8),
  (6, 22), (7, 11), (9, 25), (10, 12), (13, 14), (17, 18), (19, 21), (20, 24), (23, 27),
  (26, 28), (29, 30), (1, 17), (2, 18), (3, 19), (4, 20), (5, 10), (7, 23), (8, 24), (11, 27),
  (12, 28), (13, 29), (14, 30), (21, 26), (3, 17), (4, 16), (5, 21), (6, 18), (7, 9), (8, 20),
  (10, 26), (11, 23), (13, 25), (14, 28), (15, 27), (22, 24), (1, 4), (3, 8), (5, 16), (7, 17),
  (9, 21), (10, 22), (11, 19), (12, 20), (14, 24), (15, 26), (23, 28), (27, 30), (2, 5),
  (7, 8), (9, 18), (11, 17), (12, 16), (13, 22), (14, 20), (15, 19), (23, 24), (26, 29),
  (2, 4), (6, 12), (9, 16), (10, 11), (13, 17), (14, 18), (15, 22), (19, 25), (20, 21),
  (27, 29), (5, 6), (8, 12), (9, 10), (11, 13), (14, 16), (15, 17), (18, 20), (19, 23),
  (21, 22), (25, 26), (3, 5), (6, 7), (8, 9), (10, 12), (11, 14), (13, 16), (15, 18), (17, 20),
  (19, 21), (22, 23), (24, 25), (26, 28), (3, 4), (5, 6), (7, 8), (9, 10), (11, 12), (13, 14),
  (15, 16), (17, 18), (19, 20), (21, 22), (23, 24), (25, 26), (27, 28)]

/-- detail/sorting_network/sort31.h 214-229. -/
def netPairs31 : List (Nat × Nat) := [
  (0, 1), (2, 3), (4, 5), (6, 7), (8, 9), (10, 11), (12, 13), (14, 15), (16, 17), (18, 19),
  (20, 21), (22, 23), (24, 25), (26, 27), (28, 29), (0, 2), (1, 3), (4, 6), (5, 7), (8, 10),
  (9, 11), (12, 14), (13, 15), (16, 18), (17, 19), (20, 22), (21, 23), (24, 26), (25, 27),
  (28, 30), (0, 4), (1, 5), (2, 6), (3, 7), (8, 12), (9, 13), (10, 14), (11, 15), (16, 20),
  (17, 21), (18, 22), (19, 23), (24, 28), (25, 29), (26, 30), (0, 8), (1, 9), (2, 10), (3, 11),
  (4, 12), (5, 13), (6, 14), (7, 15), (16, 24), (17, 25), (18, 26), (19, 27), (20, 28),
  (21, 29), (22, 30), (0, 16), (1, 8), (2, 4), (3, 12), (5, 10), (6, 9), (7, 14), (11, 13),
  (17, 24), (18, 20), (19, 28), (21, 26), (22, 25), (23, 30), (27, 29), (1, 2), (3, 5), (4, 8),
  (6, 22), (7, 11), (9, 25), (10, 12), (13, 14), (17, 18), (19, 21), (20, 24), (23, 27),
  (26, 28), (29, 30), (1, 17), (2, 18), (3, 19), (4, 20), (5, 10), (7, 23), (8, 24), (11, 27),
  (12, 28), (13, 29), (14, 30), (21, 26), (3, 17), (4, 16), (5, 21), (6, 18), (7, 9), (8, 20),
  (10, 26), (11, 23), (13, 25), (14, 28), (15, 27), (22, 24), (1, 4), (3, 8), (5, 16), (7, 17),
  (9, 21), (10, 22), (11, 19), (12, 20), (14, 24), (15, 26), (23, 28), (27, 30), (2, 5),
  (7, 8), (9, 18), (11, 17), (12, 16), (13, 22), (14, 20), (15, 19), (23, 24), (26, 29),
  (2, 4), (6, 12), (9, 16), (10, 11), (13, 17), (14, 18), (15, 22), (19, 25), (20, 21),
  (27, 29), (5, 6), (8, 12), (9, 10), (11, 13), (14, 16), (15, 17), (18, 20), (19, 23),
  (21, 22), (25, 26), (3, 5), (6, 7), (8, 9), (10, 12), (11, 14), (13, 16), (15, 18), (17, 20),
  (19, 21), (22, 23), (24, 25), (26, 28), (3, 4), (5, 6), (7, 8), (9, 10), (11, 12), (13, 14),
  (15, 16), (17, 18), (19, 20), (21, 22), (23, 24), (25, 26), (27, 28)]

/-- detail/sorting_network/sort32.h 27-211. -/
def net32 : List (Nat × Nat) := [
  (0, 1), (2, 3), (4, 5), (6, 7), (8, 9), (10, 11), (12, 13), (14, 15), (16, 17), (18, 19),
  (20, 21), (22, 23), (24, 25), (26, 27), (28, 29), (30, 31), (0, 2), (1, 3), (4, 6), (5, 7),
  (8, 10), (9, 11), (12, 14), (13, 15), (16, 18), (17, 19), (20, 22), (21, 23), (24, 26),
  (25, 27), (28, 30), (29, 31), (0, 4), (1, 5), (2, 6), (3, 7), (8, 12), (9, 13), (10, 14),
  (11, 15), (16, 20), (17, 21), (18, 22), (19, 23), (24, 28), (25, 29), (26, 30), (27, 31),
  (0, 8), (1, 9), (2, 10), (3, 11), (4, 12), (5, 13), (6, 14), (7, 15), (16, 24), (17, 25),
  (18, 26), (19, 27), (20, 28), (21, 29), (22, 30), (23, 31), (0, 16), (1, 8), (2, 4), (3, 12),
  (5, 10), (6, 9), (7, 14), (11, 13), (15, 31), (17, 24), (18, 20), (19, 28), (21, 26),
  (22, 25), (23, 30), (27, 29), (1, 2), (3, 5), (4, 8), (6, 22), (7, 11), (9, 25), (10, 12),
  (13, 14), (17, 18), (19, 21), (20, 24), (23, 27), (26, 28), (29, 30), (1, 17), (2, 18),
  (3, 19), (4, 20), (5, 10), (7, 23), (8, 24), (11, 27), (12, 28), (13, 29), (14, 30),
  (21, 26), (3, 17), (4, 16), (5, 21), (6, 18), (7, 9), (8, 20), (10, 26), (11, 23), (13, 25),
  (14, 28), (15, 27), (22, 24), (1, 4), (3, 8), (5, 16), (7, 17), (9, 21), (10, 22), (11, 19),
  (12, 20), (14, 24), (15, 26), (23, 28), (27, 30), (2, 5), (7, 8), (9, 18), (11, 17),
  (12, 16), (13, 22), (14, 20), (15, 19), (23, 24), (26, 29), (2, 4), (6, 12), (9, 16),
  (10, 11), (13, 17), (14, 18), (15, 22), (19, 25), (20, 21), (27, 29), (5, 6), (8, 12),
  (9, 10), (11, 13), (14, 16), (15, 17), (18, 20), (19, 23), (21, 22), (25, 26), (3, 5),
  (6, 7), (8, 9), (10, 12), (11, 14), (13, 16), (15, 18), (17, 20), (19, 21), (22, 23),
  (24, 25), (26, 28), (3, 4), (5, 6), (7, 8), (9, 10), (11, 12), (13, 14), (15, 16), (17, 18),
  (19, 20), (21, 22), (23, 24), (25, 26), (27, 28)]

/-- detail/sorting_network/sort32.h 219-234. -/
def netPairs32 : List (Nat × Nat) := [
  (0, 1), (2, 3), (4, 5), (6, 7), (8, 9), (10, 11), (12, 13), (14, 15), (16, 17), (18, 19),
  (20, 21), (22, 23), (24, 25), (26, 27), (28, 29), (30, 31), (0, 2), (1, 3), (4, 6), (5, 7),
  (8, 10), (9, 11), (12, 14), (13, 15), (16, 18), (17, 19), (20, 22), (21, 23), (24, 26),
  (25, 27), (28, 30), (29, 31), (0, 4), (1, 5), (2, 6), (3, 7), (8, 12), (9, 13), (10, 14),
  (11, 15), (16, 20), (17, 21), (18, 22), (19, 23), (24, 28), (25, 29), (26, 30), (27, 31),
  (0, 8), (1, 9), (2, 10), (3, 11), (4, 12), (5, 13), (6, 14), (7, 15), (16, 24), (17, 25),
  (18, 26), (19, 27), (20, 28), (21, 29), (22, 30), (23, 31), (0, 16), (1, 8), (2, 4), (3, 12),
  (5, 10), (6, 9), (7, 14), (11, 13), (15, 31), (17, 24), (18, 20), (19, 28), (21, 26),
  (22, 25), (23, 30), (27, 29), (1, 2), (3, 5), (4, 8), (6, 22), (7, 11), (9, 25), (10, 12),
  (13, 14), (17, 18), (19, 21), (20, 24), (23, 27), (26, 28), (29, 30), (1, 17), (2, 18),
  (3, 19), (4, 20), (5, 10), (7, 23), (8, 24), (11, 27), (12, 28), (13, 29), (14, 30),
  (21, 26), (3, 17), (4, 16), (5, 21), (6, 18), (7, 9), (8, 20), (10, 26), (11, 23), (13, 25),
  (14, 28), (15, 27), (22, 24), (1, 4), (3, 8), (5, 16), (7, 17), (9, 21), (10, 22), (11, 19),
  (12, 20), (14, 24), (15, 26), (23, 28), (27, 30), (2, 5), (7, 8), (9, 18), (11, 17),
  (12, 16), (13, 22), (14, 20), (15, 19), (23, 24), (26, 29), (2, 4), (6, 12), (9, 16),
  (10, 11), (13, 17), (14, 18), (15, 22), (19, 25), (20, 21), (27, 29), (5, 6), (8, 12),
  (9, 10), (11, 13), (14, 16), (15, 17), (18, 20), (19, 23), (21, 22), (25, 26), (3, 5),
  (6, 7), (8, 9), (10, 12), (11, 14), (13, 16), (15, 18), (17, 20), (19, 21), (22, 23),
  (24, 25), (26, 28), (3, 4), (5, 6), (7, 8), (9, 10), (11, 12), (13, 14), (15, 16), (17, 18),
  (19, 20), (21, 22), (23, 24), (25, 26), (27, 28)]

end CppSort
