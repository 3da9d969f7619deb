set_option autoImplicit false
/-
Sorting networks for 33 to 40 elements, transcribed from detail/sorting_network/sortN.h.
`netN` is the sequence of compare-exchanges of `operator()`, `netPairsN` the table of `index_pairs()`.
-/
namespace CppSort

/-- detail/sorting_network/sort33.h 27-225. -/
def net33 : List (Nat × Nat) := [
  (0, 1), (2, 3), (4, 5), (6, 7), (8, 9), (10, 11), (12, 13), (14, 15), (16, 17), (18, 19),
  (20, 21), (22, 23), (24, 25), (26, 27), (28, 29), (30, 31), (0, 2), (1, 3), (4, 6), (5, 7),
  (8, 10), (9, 11), (12, 14), (13, 15), (16, 18), (17, 19), (20, 22), (21, 23), (24, 26),
  (25, 27), (28, 30), (29, 31), (0, 4), (1, 5), (2, 6), (3, 7), (8, 12), (9, 13), (10, 14),
  (11, 15), (16, 20), (17, 21), (18, 22), (19, 23), (24, 28), (25, 29), (26, 30), (27, 31),
  (0, 8), (1, 9), (2, 10), (3, 11), (4, 12), (5, 13), (6, 14), (7, 15), (16, 24), (17, 25),
  (18, 26), (19, 27), (20, 28), (21, 29), (22, 30), (23, 31), (0, 16), (1, 17), (2, 18),
  (3, 19), (4, 20), (5, 21), (6, 22), (7, 23), (8, 24), (9, 25), (10, 26), (11, 27), (12, 28),
  (13, 29), (14, 30), (15, 31), (1, 4), (2, 16), (3, 20), (5, 18), (6, 17), (7, 22), (9, 24),
  (10, 12), (11, 28), (13, 26), (14, 25), (15, 29), (19, 21), (23, 32), (27, 30), (1, 2),
  (3, 9), (4, 16), (6, 10), (7, 19), (11, 17), (12, 24), (13, 23), (15, 27), (22, 26),
  (25, 28), (29, 30), (3, 6), (7, 12), (9, 18), (10, 20), (13, 14), (15, 28), (17, 22),
  (21, 25), (27, 32), (5, 13), (6, 16), (9, 10), (12, 20), (14, 19), (15, 23), (25, 26),
  (30, 32), (5, 8), (11, 13), (14, 18), (15, 21), (19, 22), (23, 27), (31, 32), (4, 5),
  (7, 11), (8, 16), (12, 14), (13, 24), (15, 17), (18, 20), (19, 21), (22, 28), (23, 25),
  (27, 29), (1, 4), (3, 5), (6, 8), (7, 9), (10, 11), (13, 15), (17, 24), (22, 23), (26, 27),
  (29, 30), (0, 1), (2, 6), (8, 9), (11, 16), (12, 13), (14, 17), (15, 18), (19, 22), (20, 24),
  (25, 26), (2, 4), (5, 8), (6, 7), (9, 11), (10, 12), (13, 16), (14, 15), (17, 20), (18, 19),
  (21, 24), (23, 25), (26, 28), (3, 4), (5, 6), (7, 8), (9, 10), (11, 12), (13, 14), (15, 16),
  (17, 18), (19, 20), (21, 22), (23, 24), (25, 26), (27, 28), (4, 5), (6, 7), (8, 9), (10, 11),
  (12, 13), (14, 15), (16, 17), (18, 19), (20, 21), (22, 23), (24, 25), (28, 29)]

/-- detail/sorting_network/sort33.h 233-250. -/
def netPairs33 : List (Nat × Nat) := [
  (0, 1), (2, 3), (4, 5), (6, 7), (8, 9), (10, 11), (12, 13), (14, 15), (16, 17), (18, 19),
  (20, 21), (22, 23), (24, 25), (26, 27), (28, 29), (30, 31), (0, 2), (1, 3), (4, 6), (5, 7),
  (8, 10), (9, 11), (12, 14), (13, 15), (16, 18), (17, 19), (20, 22), (21, 23), (24, 26),
  (25, 27), (28, 30), (29, 31), (0, 4), (1, 5), (2, 6), (3, 7), (8, 12), (9, 13), (10, 14),
  (11, 15), (16, 20), (17, 21), (18, 22), (19, 23), (24, 28), (25, 29), (26, 30), (27, 31),
  (0, 8), (1, 9), (2, 10), (3, 11), (4, 12), (5, 13), (6, 14), (7, 15), (16, 24), (17, 25),
  (18, 26), (19, 27), (20, 28), (21, 29), (22, 30), (23, 31), (0, 16), (1, 17), (2, 18),
  (3, 19), (4, 20), (5, 21), (6, 22), (7, 23), (8, 24), (9, 25), (10, 26), (11, 27), (12, 28),
  (13, 29), (14, 30), (15, 31), (1, 4), (2, 16), (3, 20), (5, 18), (6, 17), (7, 22), (9, 24),
  (10, 12), (11, 28), (13, 26), (14, 25), (15, 29), (19, 21), (23, 32), (27, 30), (1, 2),
  (3, 9), (4, 16), (6, 10), (7, 19), (11, 17), (12, 24), (13, 23), (15, 27), (22, 26),
  (25, 28), (29, 30), (3, 6), (7, 12), (9, 18), (10, 20), (13, 14), (15, 28), (17, 22),
  (21, 25), (27, 32), (5, 13), (6, 16), (9, 10), (12, 20), (14, 19), (15, 23), (25, 26),
  (30, 32), (5, 8), (11, 13), (14, 18), (15, 21), (19, 22), (23, 27), (31, 32), (4, 5),
  (7, 11), (8, 16), (12, 14), (13, 24), (15, 17), (18, 20), (19, 21), (22, 28), (23, 25),
  (27, 29), (1, 4), (3, 5), (6, 8), (7, 9), (10, 11), (13, 15), (17, 24), (22, 23), (26, 27),
  (29, 30), (0, 1), (2, 6), (8, 9), (11, 16), (12, 13), (14, 17), (15, 18), (19, 22), (20, 24),
  (25, 26), (2, 4), (5, 8), (6, 7), (9, 11), (10, 12), (13, 16), (14, 15), (17, 20), (18, 19),
  (21, 24), (23, 25), (26, 28), (3, 4), (5, 6), (7, 8), (9, 10), (11, 12), (13, 14), (15, 16),
  (17, 18), (19, 20), (21, 22), (23, 24), (25, 26), (27, 28), (4, 5), (6, 7), (8, 9), (10, 11),
  (12, 13), (14, 15), (16, 17), (18, 19), (20, 21), (22, 23), (24, 25), (28, 29)]

/-- detail/sorting_network/sort34.h 27-235. -/
def net34 : List (Nat × Nat) := [
  (0, 33), (1, 2), (3, 4), (5, 6), (7, 8), (9, 10), (11, 12), (13, 14), (15, 16), (17, 18),
  (19, 20), (21, 22), (23, 24), (25, 26), (27, 28), (29, 30), (31, 32), (1, 3), (2, 4), (5, 7),
  (6, 8), (9, 11), (10, 12), (13, 15), (14, 16), (17, 19), (18, 20), (21, 23), (22, 24),
  (25, 27), (26, 28), (29, 31), (30, 32), (1, 5), (2, 6), (3, 7), (4, 8), (9, 13), (10, 14),
  (11, 15), (12, 16), (17, 21), (18, 22), (19, 23), (20, 24), (25, 29), (26, 30), (27, 31),
  (28, 32), (1, 9), (2, 10), (3, 11), (4, 12), (5, 13), (6, 14), (7, 15), (8, 16), (17, 25),
  (18, 26), (19, 27), (20, 28), (21, 29), (22, 30), (23, 31), (24, 32), (1, 17), (2, 18),
  (3, 19), (4, 20), (5, 21), (6, 22), (7, 23), (8, 24), (9, 25), (10, 26), (11, 27), (12, 28),
  (13, 29), (14, 30), (15, 31), (16, 32), (0, 4), (2, 3), (5, 17), (6, 11), (7, 10), (8, 12),
  (14, 15), (16, 28), (18, 19), (21, 25), (22, 27), (23, 26), (29, 33), (30, 31), (0, 7),
  (2, 9), (4, 13), (8, 14), (19, 25), (20, 29), (24, 31), (26, 33), (0, 9), (4, 18), (7, 21),
  (8, 19), (10, 20), (12, 26), (13, 23), (14, 25), (15, 29), (24, 33), (0, 5), (3, 7), (6, 10),
  (9, 17), (11, 20), (12, 15), (13, 22), (16, 24), (18, 21), (23, 27), (26, 30), (28, 33),
  (0, 1), (3, 5), (4, 6), (7, 17), (10, 13), (11, 18), (15, 22), (16, 26), (20, 23), (27, 29),
  (28, 30), (32, 33), (4, 9), (6, 11), (8, 10), (12, 15), (13, 19), (14, 20), (18, 21),
  (22, 27), (23, 25), (24, 29), (2, 4), (5, 9), (6, 7), (11, 17), (12, 18), (13, 14), (15, 21),
  (16, 22), (19, 20), (24, 28), (26, 27), (29, 31), (1, 2), (3, 4), (7, 8), (10, 17), (12, 13),
  (14, 18), (15, 19), (16, 23), (20, 21), (25, 26), (29, 30), (31, 32), (2, 3), (4, 5), (7, 9),
  (8, 11), (10, 12), (13, 17), (14, 15), (16, 20), (18, 19), (21, 23), (22, 25), (24, 26),
  (28, 29), (30, 31), (6, 7), (8, 9), (11, 12), (13, 14), (16, 17), (19, 20), (21, 22),
  (24, 25), (26, 27), (5, 6), (7, 8), (10, 11), (12, 13), (15, 16), (17, 18), (20, 21),
  (22, 23), (25, 26), (27, 28), (9, 10), (14, 15), (16, 17), (18, 19), (23, 24)]

/-- detail/sorting_network/sort34.h 243-261. -/
def netPairs34 : List (Nat × Nat) := [
  (0, 33), (1, 2), (3, 4), (5, 6), (7, 8), (9, 10), (11, 12), (13, 14), (15, 16), (17, 18),
  (19, 20), (21, 22), (23, 24), (25, 26), (27, 28), (29, 30), (31, 32), (1, 3), (2, 4), (5, 7),
  (6, 8), (9, 11), (10, 12), (13, 15), (14, 16), (17, 19), (18, 20), (21, 23), (22, 24),
  (25, 27), (26, 28), (29, 31), (30, 32), (1, 5), (2, 6), (3, 7), (4, 8), (9, 13), (10, 14),
  (11, 15), (12, 16), (17, 21), (18, 22), (19, 23), (20, 24), (25, 29), (26, 30), (27, 31),
  (28, 32), (1, 9), (2, 10), (3, 11), (4, 12), (5, 13), (6, 14), (7, 15), (8, 16), (17, 25),
  (18, 26), (19, 27), (20, 28), (21, 29), (22, 30), (23, 31), (24, 32), (1, 17), (2, 18),
  (3, 19), (4, 20), (5, 21), (6, 22), (7, 23), (8, 24), (9, 25), (10, 26), (11, 27), (12, 28),
  (13, 29), (14, 30), (15, 31), (16, 32), (0, 4), (2, 3), (5, 17), (6, 11), (7, 10), (8, 12),
  (14, 15), (16, 28), (18, 19), (21, 25), (22, 27), (23, 26), (29, 33), (30, 31), (0, 7),
  (2, 9), (4, 13), (8, 14), (19, 25), (20, 29), (24, 31), (26, 33), (0, 9), (4, 18), (7, 21),
  (8, 19), (10, 20), (12, 26), (13, 23), (14, 25), (15, 29), (24, 33), (0, 5), (3, 7), (6, 10),
  (9, 17), (11, 20), (12, 15), (13, 22), (16, 24), (18, 21), (23, 27), (26, 30), (28, 33),
  (0, 1), (3, 5), (4, 6), (7, 17), (10, 13), (11, 18), (15, 22), (16, 26), (20, 23), (27, 29),
  (28, 30), (32, 33), (4, 9), (6, 11), (8, 10), (12, 15), (13, 19), (14, 20), (18, 21),
  (22, 27), (23, 25), (24, 29), (2, 4), (5, 9), (6, 7), (11, 17), (12, 18), (13, 14), (15, 21),
  (16, 22), (19, 20), (24, 28), (26, 27), (29, 31), (1, 2), (3, 4), (7, 8), (10, 17), (12, 13),
  (14, 18), (15, 19), (16, 23), (20, 21), (25, 26), (29, 30), (31, 32), (2, 3), (4, 5), (7, 9),
  (8, 11), (10, 12), (13, 17), (14, 15), (16, 20), (18, 19), (21, 23), (22, 25), (24, 26),
  (28, 29), (30, 31), (6, 7), (8, 9), (11, 12), (13, 14), (16, 17), (19, 20), (21, 22),
  (24, 25), (26, 27), (5, 6), (7, 8), (10, 11), (12, 13), (15, 16), (17, 18), (20, 21),
  (22, 23), (25, 26), (27, 28), (9, 10), (14, 15), (16, 17), (18, 19), (23, 24)]

/-- detail/sorting_network/sort35.h 27-246. -/
def net35 : List (Nat × Nat) := [
  (0, 1), (2, 3), (4, 5), (6, 7), (8, 9), (10, 11), (12, 13), (14, 15), (16, 17), (18, 19),
  (20, 21), (22, 23), (24, 25), (26, 27), (28, 29), (30, 31), (32, 33), (0, 2), (1, 3), (4, 6),
  (5, 7), (8, 10), (9, 11), (12, 14), (13, 15), (16, 18), (17, 19), (20, 22), (21, 23),
  (24, 26), (25, 27), (28, 30), (29, 31), (33, 34), (0, 4), (1, 5), (2, 6), (3, 7), (8, 12),
  (9, 13), (10, 14), (11, 15), (16, 20), (17, 21), (18, 22), (19, 23), (24, 28), (25, 29),
  (26, 30), (27, 31), (32, 33), (0, 8), (1, 9), (2, 10), (3, 11), (4, 12), (5, 13), (6, 14),
  (7, 15), (16, 24), (17, 25), (18, 26), (19, 27), (20, 28), (21, 29), (22, 30), (23, 31),
  (0, 16), (1, 17), (2, 18), (3, 19), (4, 20), (5, 21), (6, 22), (7, 23), (8, 24), (9, 25),
  (10, 26), (11, 27), (12, 28), (13, 29), (14, 30), (15, 31), (0, 32), (1, 2), (3, 12), (4, 8),
  (5, 10), (6, 9), (7, 11), (13, 14), (17, 18), (19, 28), (20, 24), (21, 26), (22, 25),
  (23, 27), (29, 30), (31, 34), (5, 6), (9, 19), (14, 28), (15, 31), (16, 32), (17, 33),
  (18, 24), (21, 22), (1, 17), (3, 16), (9, 21), (10, 32), (13, 33), (14, 22), (15, 20),
  (19, 26), (30, 31), (1, 3), (2, 15), (7, 13), (8, 17), (10, 16), (11, 33), (20, 32),
  (23, 30), (3, 4), (5, 16), (6, 17), (7, 15), (11, 19), (12, 20), (13, 24), (23, 29),
  (25, 32), (26, 33), (1, 3), (4, 8), (5, 10), (6, 7), (9, 12), (13, 15), (14, 25), (16, 18),
  (19, 24), (20, 21), (28, 32), (29, 33), (2, 5), (10, 16), (11, 20), (12, 14), (17, 18),
  (21, 23), (22, 25), (26, 28), (27, 33), (30, 32), (2, 4), (5, 8), (9, 16), (11, 17),
  (12, 13), (14, 15), (18, 20), (19, 26), (21, 22), (23, 25), (24, 28), (27, 30), (31, 33),
  (2, 3), (4, 5), (6, 9), (7, 16), (8, 10), (11, 12), (13, 18), (14, 17), (15, 20), (19, 21),
  (22, 24), (23, 26), (25, 28), (27, 29), (31, 32), (6, 8), (7, 9), (10, 11), (12, 14),
  (13, 16), (15, 19), (17, 18), (20, 21), (22, 23), (24, 26), (25, 27), (28, 29), (30, 31),
  (5, 6), (7, 10), (9, 11), (12, 13), (14, 16), (15, 17), (18, 19), (20, 22), (21, 23),
  (24, 25), (26, 27), (29, 30), (7, 8), (9, 10), (11, 12), (13, 14), (15, 16), (17, 18),
  (19, 20), (21, 22), (23, 24), (25, 26), (27, 28)]

/-- detail/sorting_network/sort35.h 254-272. -/
def netPairs35 : List (Nat × Nat) := [
  (0, 1), (2, 3), (4, 5), (6, 7), (8, 9), (10, 11), (12, 13), (14, 15), (16, 17), (18, 19),
  (20, 21), (22, 23), (24, 25), (26, 27), (28, 29), (30, 31), (32, 33), (0, 2), (1, 3), (4, 6),
  (5, 7), (8, 10), (9, 11), (12, 14), (13, 15), (16, 18), (17, 19), (20, 22), (21, 23),
  (24, 26), (25, 27), (28, 30), (29, 31), (33, 34), (0, 4), (1, 5), (2, 6), (3, 7), (8, 12),
  (9, 13), (10, 14), (11, 15), (16, 20), (17, 21), (18, 22), (19, 23), (24, 28), (25, 29),
  (26, 30), (27, 31), (32, 33), (0, 8), (1, 9), (2, 10), (3, 11), (4, 12), (5, 13), (6, 14),
  (7, 15), (16, 24), (17, 25), (18, 26), (19, 27), (20, 28), (21, 29), (22, 30), (23, 31),
  (0, 16), (1, 17), (2, 18), (3, 19), (4, 20), (5, 21), (6, 22), (7, 23), (8, 24), (9, 25),
  (10, 26), (11, 27), (12, 28), (13, 29), (14, 30), (15, 31), (0, 32), (1, 2), (3, 12), (4, 8),
  (5, 10), (6, 9), (7, 11), (13, 14), (17, 18), (19, 28), (20, 24), (21, 26), (22, 25),
  (23, 27), (29, 30), (31, 34), (5, 6), (9, 19), (14, 28), (15, 31), (16, 32), (17, 33),
  (18, 24), (21, 22), (1, 17), (3, 16), (9, 21), (10, 32), (13, 33), (14, 22), (15, 20),
  (19, 26), (30, 31), (1, 3), (2, 15), (7, 13), (8, 17), (10, 16), (11, 33), (20, 32),
  (23, 30), (3, 4), (5, 16), (6, 17), (7, 15), (11, 19), (12, 20), (13, 24), (23, 29),
  (25, 32), (26, 33), (1, 3), (4, 8), (5, 10), (6, 7), (9, 12), (13, 15), (14, 25), (16, 18),
  (19, 24), (20, 21), (28, 32), (29, 33), (2, 5), (10, 16), (11, 20), (12, 14), (17, 18),
  (21, 23), (22, 25), (26, 28), (27, 33), (30, 32), (2, 4), (5, 8), (9, 16), (11, 17),
  (12, 13), (14, 15), (18, 20), (19, 26), (21, 22), (23, 25), (24, 28), (27, 30), (31, 33),
  (2, 3), (4, 5), (6, 9), (7, 16), (8, 10), (11, 12), (13, 18), (14, 17), (15, 20), (19, 21),
  (22, 24), (23, 26), (25, 28), (27, 29), (31, 32), (6, 8), (7, 9), (10, 11), (12, 14),
  (13, 16), (15, 19), (17, 18), (20, 21), (22, 23), (24, 26), (25, 27), (28, 29), (30, 31),
  (5, 6), (7, 10), (9, 11), (12, 13), (14, 16), (15, 17), (18, 19), (20, 22), (21, 23),
  (24, 25), (26, 27), (29, 30), (7, 8), (9, 10), (11, 12), (13, 14), (15, 16), (17, 18),
  (19, 20), (21, 22), (23, 24), (25, 26), (27, 28)]

/-- detail/sorting_network/sort36.h 27-253. -/
def net36 : List (Nat × Nat) := [
  (0, 1), (2, 3), (4, 5), (6, 7), (8, 9), (10, 11), (12, 13), (14, 15), (16, 17), (18, 19),
  (20, 21), (22, 23), (24, 25), (26, 27), (28, 29), (30, 31), (32, 33), (34, 35), (0, 34),
  (1, 35), (2, 4), (3, 5), (6, 8), (7, 9), (10, 12), (11, 13), (14, 16), (15, 17), (18, 20),
  (19, 21), (22, 24), (23, 25), (26, 28), (27, 29), (30, 32), (31, 33), (2, 6), (3, 7), (4, 8),
  (5, 9), (10, 14), (11, 15), (12, 16), (13, 17), (18, 22), (19, 23), (20, 24), (21, 25),
  (26, 30), (27, 31), (28, 32), (29, 33), (2, 10), (3, 11), (4, 12), (5, 13), (6, 14), (7, 15),
  (8, 16), (9, 17), (18, 26), (19, 27), (20, 28), (21, 29), (22, 30), (23, 31), (24, 32),
  (25, 33), (2, 18), (3, 19), (4, 20), (5, 21), (6, 22), (7, 23), (8, 24), (9, 25), (10, 26),
  (11, 27), (12, 28), (13, 29), (14, 30), (15, 31), (16, 32), (17, 33), (0, 2), (1, 3),
  (4, 10), (5, 11), (8, 26), (9, 27), (12, 22), (13, 23), (14, 20), (15, 21), (24, 30),
  (25, 31), (32, 34), (33, 35), (1, 10), (2, 12), (3, 22), (11, 19), (13, 32), (16, 24),
  (23, 33), (25, 34), (2, 18), (3, 12), (7, 13), (17, 33), (22, 28), (23, 32), (3, 8), (5, 23),
  (6, 18), (7, 11), (12, 30), (13, 19), (16, 22), (17, 29), (24, 28), (27, 32), (1, 6), (4, 7),
  (5, 14), (8, 20), (9, 23), (10, 18), (11, 13), (12, 26), (15, 27), (17, 25), (21, 30),
  (22, 24), (28, 31), (29, 34), (2, 4), (3, 5), (7, 8), (9, 15), (12, 14), (20, 26), (21, 23),
  (27, 28), (30, 32), (31, 33), (1, 2), (4, 6), (7, 10), (8, 18), (9, 22), (11, 20), (13, 26),
  (14, 16), (15, 24), (17, 27), (19, 21), (25, 28), (29, 31), (33, 34), (2, 4), (3, 7), (5, 8),
  (9, 14), (11, 12), (13, 18), (15, 16), (17, 22), (19, 20), (21, 26), (23, 24), (27, 30),
  (28, 32), (31, 33), (3, 4), (5, 11), (6, 7), (8, 12), (9, 13), (14, 18), (15, 19), (16, 20),
  (17, 21), (22, 26), (23, 27), (24, 30), (28, 29), (31, 32), (4, 6), (7, 10), (9, 11),
  (12, 15), (13, 14), (16, 17), (18, 19), (20, 23), (21, 22), (24, 26), (25, 28), (29, 31),
  (5, 7), (8, 10), (12, 13), (14, 15), (16, 18), (17, 19), (20, 21), (22, 23), (25, 27),
  (28, 30), (5, 6), (8, 9), (10, 11), (13, 14), (15, 16), (17, 18), (19, 20), (21, 22),
  (24, 25), (26, 27), (29, 30), (7, 8), (9, 10), (11, 12), (23, 24), (25, 26), (27, 28)]

/-- detail/sorting_network/sort36.h 261-280. -/
def netPairs36 : List (Nat × Nat) := [
  (0, 1), (2, 3), (4, 5), (6, 7), (8, 9), (10, 11), (12, 13), (14, 15), (16, 17), (18, 19),
  (20, 21), (22, 23), (24, 25), (26, 27), (28, 29), (30, 31), (32, 33), (34, 35), (0, 34),
  (1, 35), (2, 4), (3, 5), (6, 8), (7, 9), (10, 12), (11, 13), (14, 16), (15, 17), (18, 20),
  (19, 21), (22, 24), (23, 25), (26, 28), (27, 29), (30, 32), (31, 33), (2, 6), (3, 7), (4, 8),
  (5, 9), (10, 14), (11, 15), (12, 16), (13, 17), (18, 22), (19, 23), (20, 24), (21, 25),
  (26, 30), (27, 31), (28, 32), (29, 33), (2, 10), (3, 11), (4, 12), (5, 13), (6, 14), (7, 15),
  (8, 16), (9, 17), (18, 26), (19, 27), (20, 28), (21, 29), (22, 30), (23, 31), (24, 32),
  (25, 33), (2, 18), (3, 19), (4, 20), (5, 21), (6, 22), (7, 23), (8, 24), (9, 25), (10, 26),
  (11, 27), (12, 28), (13, 29), (14, 30), (15, 31), (16, 32), (17, 33), (0, 2), (1, 3),
  (4, 10), (5, 11), (8, 26), (9, 27), (12, 22), (13, 23), (14, 20), (15, 21), (24, 30),
  (25, 31), (32, 34), (33, 35), (1, 10), (2, 12), (3, 22), (11, 19), (13, 32), (16, 24),
  (23, 33), (25, 34), (2, 18), (3, 12), (7, 13), (17, 33), (22, 28), (23, 32), (3, 8), (5, 23),
  (6, 18), (7, 11), (12, 30), (13, 19), (16, 22), (17, 29), (24, 28), (27, 32), (1, 6), (4, 7),
  (5, 14), (8, 20), (9, 23), (10, 18), (11, 13), (12, 26), (15, 27), (17, 25), (21, 30),
  (22, 24), (28, 31), (29, 34), (2, 4), (3, 5), (7, 8), (9, 15), (12, 14), (20, 26), (21, 23),
  (27, 28), (30, 32), (31, 33), (1, 2), (4, 6), (7, 10), (8, 18), (9, 22), (11, 20), (13, 26),
  (14, 16), (15, 24), (17, 27), (19, 21), (25, 28), (29, 31), (33, 34), (2, 4), (3, 7), (5, 8),
  (9, 14), (11, 12), (13, 18), (15, 16), (17, 22), (19, 20), (21, 26), (23, 24), (27, 30),
  (28, 32), (31, 33), (3, 4), (5, 11), (6, 7), (8, 12), (9, 13), (14, 18), (15, 19), (16, 20),
  (17, 21), (22, 26), (23, 27), (24, 30), (28, 29), (31, 32), (4, 6), (7, 10), (9, 11),
  (12, 15), (13, 14), (16, 17), (18, 19), (20, 23), (21, 22), (24, 26), (25, 28), (29, 31),
  (5, 7), (8, 10), (12, 13), (14, 15), (16, 18), (17, 19), (20, 21), (22, 23), (25, 27),
  (28, 30), (5, 6), (8, 9), (10, 11), (13, 14), (15, 16), (17, 18), (19, 20), (21, 22),
  (24, 25), (26, 27), (29, 30), (7, 8), (9, 10), (11, 12), (23, 24), (25, 26), (27, 28)]

/-- detail/sorting_network/sort37.h 27-266. -/
def net37 : List (Nat × Nat) := [
  (0, 1), (2, 3), (4, 5), (6, 7), (8, 9), (10, 11), (12, 13), (14, 15), (16, 17), (18, 19),
  (20, 21), (22, 23), (24, 25), (26, 27), (28, 29), (30, 31), (32, 35), (33, 36), (0, 2),
  (1, 3), (4, 6), (5, 7), (8, 10), (9, 11), (12, 14), (13, 15), (16, 18), (17, 19), (20, 22),
  (21, 23), (24, 26), (25, 27), (28, 30), (29, 31), (32, 34), (33, 35), (0, 4), (1, 5), (2, 6),
  (3, 7), (8, 12), (9, 13), (10, 14), (11, 15), (16, 20), (17, 21), (18, 22), (19, 23),
  (24, 28), (25, 29), (26, 30), (27, 31), (32, 33), (34, 36), (0, 8), (1, 9), (2, 10), (3, 11),
  (4, 12), (5, 13), (6, 14), (7, 15), (16, 24), (17, 25), (18, 26), (19, 27), (20, 28),
  (21, 29), (22, 30), (23, 31), (33, 34), (35, 36), (0, 16), (1, 17), (2, 18), (3, 19),
  (4, 20), (5, 21), (6, 22), (7, 23), (8, 24), (9, 25), (10, 26), (11, 27), (12, 28), (13, 29),
  (14, 30), (15, 31), (34, 35), (0, 32), (1, 2), (3, 12), (4, 8), (5, 10), (6, 9), (7, 11),
  (13, 14), (17, 18), (19, 28), (20, 24), (21, 26), (22, 25), (23, 27), (29, 30), (31, 36),
  (1, 33), (3, 6), (7, 13), (12, 31), (16, 32), (18, 35), (20, 34), (21, 22), (23, 29),
  (25, 26), (2, 20), (4, 16), (11, 25), (12, 32), (17, 33), (19, 34), (21, 31), (28, 35),
  (3, 12), (8, 17), (9, 21), (10, 32), (13, 28), (14, 33), (15, 35), (18, 20), (25, 31),
  (2, 8), (3, 16), (5, 18), (7, 20), (10, 19), (14, 24), (15, 23), (22, 33), (27, 35),
  (30, 31), (32, 34), (1, 3), (5, 16), (6, 14), (7, 17), (9, 10), (11, 19), (12, 18), (13, 22),
  (20, 24), (21, 32), (25, 33), (26, 34), (27, 30), (31, 35), (1, 4), (3, 5), (6, 9), (10, 21),
  (11, 13), (12, 16), (14, 18), (15, 22), (17, 20), (19, 32), (23, 33), (24, 28), (25, 26),
  (29, 34), (2, 4), (5, 8), (7, 16), (10, 17), (11, 14), (13, 18), (15, 24), (19, 25),
  (20, 21), (22, 28), (23, 27), (26, 32), (30, 34), (3, 4), (6, 7), (8, 12), (9, 16), (10, 11),
  (13, 17), (14, 20), (15, 19), (18, 21), (22, 25), (23, 29), (24, 26), (28, 32), (30, 33),
  (31, 34), (4, 5), (6, 8), (7, 9), (10, 12), (11, 14), (13, 16), (15, 17), (18, 20), (19, 22),
  (21, 24), (23, 25), (26, 28), (27, 30), (29, 32), (31, 33), (5, 6), (7, 10), (9, 12),
  (11, 13), (14, 16), (15, 18), (17, 20), (19, 21), (22, 24), (23, 26), (25, 28), (27, 29),
  (30, 32), (7, 8), (9, 10), (11, 12), (13, 14), (15, 16), (17, 18), (19, 20), (21, 22),
  (23, 24), (25, 26), (27, 28), (29, 30), (31, 32)]

/-- detail/sorting_network/sort37.h 274-292. -/
def netPairs37 : List (Nat × Nat) := [
  (0, 1), (2, 3), (4, 5), (6, 7), (8, 9), (10, 11), (12, 13), (14, 15), (16, 17), (18, 19),
  (20, 21), (22, 23), (24, 25), (26, 27), (28, 29), (30, 31), (32, 35), (33, 36), (0, 2),
  (1, 3), (4, 6), (5, 7), (8, 10), (9, 11), (12, 14), (13, 15), (16, 18), (17, 19), (20, 22),
  (21, 23), (24, 26), (25, 27), (28, 30), (29, 31), (32, 34), (33, 35), (0, 4), (1, 5), (2, 6),
  (3, 7), (8, 12), (9, 13), (10, 14), (11, 15), (16, 20), (17, 21), (18, 22), (19, 23),
  (24, 28), (25, 29), (26, 30), (27, 31), (32, 33), (34, 36), (0, 8), (1, 9), (2, 10), (3, 11),
  (4, 12), (5, 13), (6, 14), (7, 15), (16, 24), (17, 25), (18, 26), (19, 27), (20, 28),
  (21, 29), (22, 30), (23, 31), (33, 34), (35, 36), (0, 16), (1, 17), (2, 18), (3, 19),
  (4, 20), (5, 21), (6, 22), (7, 23), (8, 24), (9, 25), (10, 26), (11, 27), (12, 28), (13, 29),
  (14, 30), (15, 31), (34, 35), (0, 32), (1, 2), (3, 12), (4, 8), (5, 10), (6, 9), (7, 11),
  (13, 14), (17, 18), (19, 28), (20, 24), (21, 26), (22, 25), (23, 27), (29, 30), (31, 36),
  (1, 33), (3, 6), (7, 13), (12, 31), (16, 32), (18, 35), (20, 34), (21, 22), (23, 29),
  (25, 26), (2, 20), (4, 16), (11, 25), (12, 32), (17, 33), (19, 34), (21, 31), (28, 35),
  (3, 12), (8, 17), (9, 21), (10, 32), (13, 28), (14, 33), (15, 35), (18, 20), (25, 31),
  (2, 8), (3, 16), (5, 18), (7, 20), (10, 19), (14, 24), (15, 23), (22, 33), (27, 35),
  (30, 31), (32, 34), (1, 3), (5, 16), (6, 14), (7, 17), (9, 10), (11, 19), (12, 18), (13, 22),
  (20, 24), (21, 32), (25, 33), (26, 34), (27, 30), (31, 35), (1, 4), (3, 5), (6, 9), (10, 21),
  (11, 13), (12, 16), (14, 18), (15, 22), (17, 20), (19, 32), (23, 33), (24, 28), (25, 26),
  (29, 34), (2, 4), (5, 8), (7, 16), (10, 17), (11, 14), (13, 18), (15, 24), (19, 25),
  (20, 21), (22, 28), (23, 27), (26, 32), (30, 34), (3, 4), (6, 7), (8, 12), (9, 16), (10, 11),
  (13, 17), (14, 20), (15, 19), (18, 21), (22, 25), (23, 29), (24, 26), (28, 32), (30, 33),
  (31, 34), (4, 5), (6, 8), (7, 9), (10, 12), (11, 14), (13, 16), (15, 17), (18, 20), (19, 22),
  (21, 24), (23, 25), (26, 28), (27, 30), (29, 32), (31, 33), (5, 6), (7, 10), (9, 12),
  (11, 13), (14, 16), (15, 18), (17, 20), (19, 21), (22, 24), (23, 26), (25, 28), (27, 29),
  (30, 32), (7, 8), (9, 10), (11, 12), (13, 14), (15, 16), (17, 18), (19, 20), (21, 22),
  (23, 24), (25, 26), (27, 28), (29, 30), (31, 32)]

/-- detail/sorting_network/sort38.h 27-276. -/
def net38 : List (Nat × Nat) := [
  (0, 1), (2, 3), (4, 5), (6, 7), (8, 9), (10, 11), (12, 13), (14, 15), (16, 17), (18, 19),
  (20, 21), (22, 23), (24, 25), (26, 27), (28, 29), (30, 31), (32, 33), (34, 35), (36, 37),
  (0, 2), (1, 3), (4, 6), (5, 7), (8, 10), (9, 11), (12, 14), (13, 15), (16, 20), (17, 21),
  (22, 24), (23, 25), (26, 28), (27, 29), (30, 32), (31, 33), (34, 36), (35, 37), (0, 4),
  (1, 5), (2, 6), (3, 7), (8, 12), (9, 13), (10, 14), (11, 15), (16, 18), (19, 21), (22, 26),
  (23, 27), (24, 28), (25, 29), (30, 34), (31, 35), (32, 36), (33, 37), (0, 8), (1, 9),
  (2, 10), (3, 11), (4, 12), (5, 13), (6, 14), (7, 15), (17, 19), (18, 20), (22, 30), (23, 31),
  (24, 32), (25, 33), (26, 34), (27, 35), (28, 36), (29, 37), (0, 22), (1, 23), (2, 24),
  (3, 25), (4, 26), (5, 27), (6, 28), (7, 29), (8, 30), (9, 31), (10, 32), (11, 33), (12, 34),
  (13, 35), (14, 36), (15, 37), (17, 18), (19, 20), (1, 2), (3, 12), (4, 8), (5, 10), (6, 9),
  (7, 11), (13, 14), (23, 24), (25, 34), (26, 30), (27, 32), (28, 31), (29, 33), (35, 36),
  (4, 17), (5, 6), (7, 13), (9, 10), (11, 18), (14, 21), (16, 23), (19, 26), (20, 33),
  (24, 30), (27, 28), (31, 32), (3, 19), (5, 17), (6, 22), (8, 16), (9, 23), (14, 28),
  (15, 31), (18, 34), (20, 32), (21, 29), (1, 8), (4, 6), (11, 22), (12, 14), (13, 20),
  (15, 26), (17, 24), (23, 25), (29, 36), (31, 33), (0, 1), (2, 11), (3, 8), (7, 15), (10, 12),
  (13, 19), (18, 24), (22, 30), (25, 27), (26, 35), (29, 34), (36, 37), (1, 4), (2, 6),
  (9, 13), (10, 17), (11, 16), (12, 18), (14, 22), (15, 23), (19, 25), (20, 27), (21, 26),
  (24, 28), (31, 35), (33, 36), (2, 3), (5, 11), (7, 15), (8, 9), (12, 17), (13, 16), (14, 19),
  (18, 23), (20, 25), (21, 24), (22, 30), (26, 32), (28, 29), (34, 35), (2, 4), (3, 5),
  (6, 11), (7, 12), (9, 10), (13, 14), (15, 17), (16, 19), (18, 21), (20, 22), (23, 24),
  (25, 30), (26, 31), (27, 28), (32, 34), (33, 35), (3, 4), (5, 9), (6, 8), (7, 13), (10, 11),
  (12, 16), (14, 15), (17, 19), (18, 20), (21, 25), (22, 23), (24, 30), (26, 27), (28, 32),
  (29, 31), (33, 34), (4, 6), (7, 10), (8, 9), (11, 13), (12, 14), (15, 18), (16, 17),
  (19, 22), (20, 21), (23, 25), (24, 26), (27, 30), (28, 29), (31, 33), (5, 6), (7, 8),
  (9, 10), (11, 12), (13, 14), (15, 16), (17, 18), (19, 20), (21, 22), (23, 24), (25, 26),
  (27, 28), (29, 30), (31, 32), (6, 7), (8, 9), (10, 11), (12, 13), (14, 15), (16, 17),
  (18, 19), (20, 21), (22, 23), (24, 25), (26, 27), (28, 29), (30, 31)]

/-- detail/sorting_network/sort38.h 284-302. -/
def netPairs38 : List (Nat × Nat) := [
  (0, 1), (2, 3), (4, 5), (6, 7), (8, 9), (10, 11), (12, 13), (14, 15), (16, 17), (18, 19),
  (20, 21), (22, 23), (24, 25), (26, 27), (28, 29), (30, 31), (32, 33), (34, 35), (36, 37),
  (0, 2), (1, 3), (4, 6), (5, 7), (8, 10), (9, 11), (12, 14), (13, 15), (16, 20), (17, 21),
  (22, 24), (23, 25), (26, 28), (27, 29), (30, 32), (31, 33), (34, 36), (35, 37), (0, 4),
  (1, 5), (2, 6), (3, 7), (8, 12), (9, 13), (10, 14), (11, 15), (16, 18), (19, 21), (22, 26),
  (23, 27), (24, 28), (25, 29), (30, 34), (31, 35), (32, 36), (33, 37), (0, 8), (1, 9),
  (2, 10), (3, 11), (4, 12), (5, 13), (6, 14), (7, 15), (17, 19), (18, 20), (22, 30), (23, 31),
  (24, 32), (25, 33), (26, 34), (27, 35), (28, 36), (29, 37), (0, 22), (1, 23), (2, 24),
  (3, 25), (4, 26), (5, 27), (6, 28), (7, 29), (8, 30), (9, 31), (10, 32), (11, 33), (12, 34),
  (13, 35), (14, 36), (15, 37), (17, 18), (19, 20), (1, 2), (3, 12), (4, 8), (5, 10), (6, 9),
  (7, 11), (13, 14), (23, 24), (25, 34), (26, 30), (27, 32), (28, 31), (29, 33), (35, 36),
  (4, 17), (5, 6), (7, 13), (9, 10), (11, 18), (14, 21), (16, 23), (19, 26), (20, 33),
  (24, 30), (27, 28), (31, 32), (3, 19), (5, 17), (6, 22), (8, 16), (9, 23), (14, 28),
  (15, 31), (18, 34), (20, 32), (21, 29), (1, 8), (4, 6), (11, 22), (12, 14), (13, 20),
  (15, 26), (17, 24), (23, 25), (29, 36), (31, 33), (0, 1), (2, 11), (3, 8), (7, 15), (10, 12),
  (13, 19), (18, 24), (22, 30), (25, 27), (26, 35), (29, 34), (36, 37), (1, 4), (2, 6),
  (9, 13), (10, 17), (11, 16), (12, 18), (14, 22), (15, 23), (19, 25), (20, 27), (21, 26),
  (24, 28), (31, 35), (33, 36), (2, 3), (5, 11), (7, 15), (8, 9), (12, 17), (13, 16), (14, 19),
  (18, 23), (20, 25), (21, 24), (22, 30), (26, 32), (28, 29), (34, 35), (2, 4), (3, 5),
  (6, 11), (7, 12), (9, 10), (13, 14), (15, 17), (16, 19), (18, 21), (20, 22), (23, 24),
  (25, 30), (26, 31), (27, 28), (32, 34), (33, 35), (3, 4), (5, 9), (6, 8), (7, 13), (10, 11),
  (12, 16), (14, 15), (17, 19), (18, 20), (21, 25), (22, 23), (24, 30), (26, 27), (28, 32),
  (29, 31), (33, 34), (4, 6), (7, 10), (8, 9), (11, 13), (12, 14), (15, 18), (16, 17),
  (19, 22), (20, 21), (23, 25), (24, 26), (27, 30), (28, 29), (31, 33), (5, 6), (7, 8),
  (9, 10), (11, 12), (13, 14), (15, 16), (17, 18), (19, 20), (21, 22), (23, 24), (25, 26),
  (27, 28), (29, 30), (31, 32), (6, 7), (8, 9), (10, 11), (12, 13), (14, 15), (16, 17),
  (18, 19), (20, 21), (22, 23), (24, 25), (26, 27), (28, 29), (30, 31)]

/-- detail/sorting_network/sort39.h 27-285. -/
def net39 : List (Nat × Nat) := [
  (1, 2), (3, 6), (4, 5), (7, 14), (8, 9), (10, 11), (12, 13), (15, 38), (16, 17), (18, 19),
  (20, 21), (22, 23), (24, 25), (26, 27), (28, 29), (30, 31), (32, 33), (34, 35), (36, 37),
  (0, 1), (3, 4), (5, 6), (7, 12), (8, 10), (9, 11), (13, 14), (15, 36), (16, 18), (17, 19),
  (20, 22), (21, 23), (24, 26), (25, 27), (28, 30), (29, 31), (32, 34), (33, 35), (37, 38),
  (0, 3), (1, 4), (2, 5), (7, 8), (9, 13), (10, 12), (11, 14), (15, 32), (16, 20), (17, 21),
  (18, 22), (19, 23), (24, 28), (25, 29), (26, 30), (27, 31), (33, 37), (34, 36), (35, 38),
  (0, 7), (1, 10), (2, 9), (3, 8), (4, 12), (5, 13), (6, 11), (15, 24), (17, 20), (19, 22),
  (25, 33), (26, 34), (27, 35), (28, 32), (29, 37), (30, 36), (31, 38), (0, 15), (1, 26),
  (2, 25), (3, 28), (4, 30), (5, 29), (6, 27), (7, 24), (8, 32), (9, 33), (10, 34), (11, 35),
  (12, 36), (13, 37), (14, 31), (1, 2), (4, 9), (5, 10), (6, 8), (7, 16), (12, 13), (14, 21),
  (18, 24), (23, 31), (25, 26), (27, 32), (29, 34), (30, 33), (36, 37), (3, 18), (4, 6),
  (5, 25), (8, 9), (10, 24), (13, 34), (14, 29), (15, 16), (21, 35), (23, 38), (27, 30),
  (32, 33), (4, 17), (7, 15), (9, 20), (10, 16), (11, 21), (18, 28), (19, 27), (22, 33),
  (23, 29), (31, 38), (0, 7), (1, 4), (3, 15), (6, 9), (10, 18), (11, 12), (13, 22), (14, 19),
  (17, 25), (20, 24), (21, 29), (26, 28), (27, 32), (31, 35), (33, 37), (2, 6), (3, 7),
  (5, 14), (8, 19), (9, 16), (10, 15), (12, 25), (13, 26), (20, 30), (23, 27), (24, 34),
  (29, 31), (32, 36), (35, 38), (1, 3), (2, 15), (4, 5), (6, 18), (8, 17), (9, 13), (11, 23),
  (12, 19), (16, 28), (20, 26), (21, 32), (22, 30), (25, 27), (29, 36), (33, 34), (37, 38),
  (2, 7), (4, 10), (5, 8), (6, 9), (11, 17), (12, 14), (13, 20), (16, 18), (19, 25), (21, 23),
  (22, 28), (24, 26), (27, 32), (30, 33), (31, 34), (35, 36), (2, 3), (6, 10), (9, 15),
  (11, 12), (13, 16), (14, 17), (18, 20), (19, 21), (22, 24), (23, 25), (26, 28), (27, 29),
  (31, 32), (36, 37), (3, 4), (5, 9), (8, 15), (11, 13), (12, 18), (14, 16), (17, 20),
  (19, 22), (21, 26), (23, 24), (25, 28), (27, 30), (29, 33), (34, 36), (4, 7), (5, 6), (8, 9),
  (10, 11), (12, 14), (13, 15), (16, 17), (18, 19), (20, 21), (22, 23), (24, 26), (25, 27),
  (28, 31), (29, 30), (32, 33), (34, 35), (6, 7), (8, 10), (9, 11), (12, 13), (14, 15),
  (16, 18), (17, 19), (20, 22), (21, 23), (24, 25), (26, 27), (28, 29), (30, 31), (32, 34),
  (5, 6), (7, 8), (9, 10), (11, 12), (13, 14), (15, 16), (17, 18), (19, 20), (21, 22),
  (23, 24), (25, 26), (27, 28), (29, 30), (31, 32), (33, 34)]

/-- detail/sorting_network/sort39.h 293-311. -/
def netPairs39 : List (Nat × Nat) := [
  (1, 2), (3, 6), (4, 5), (7, 14), (8, 9), (10, 11), (12, 13), (15, 38), (16, 17), (18, 19),
  (20, 21), (22, 23), (24, 25), (26, 27), (28, 29), (30, 31), (32, 33), (34, 35), (36, 37),
  (0, 1), (3, 4), (5, 6), (7, 12), (8, 10), (9, 11), (13, 14), (15, 36), (16, 18), (17, 19),
  (20, 22), (21, 23), (24, 26), (25, 27), (28, 30), (29, 31), (32, 34), (33, 35), (37, 38),
  (0, 3), (1, 4), (2, 5), (7, 8), (9, 13), (10, 12), (11, 14), (15, 32), (16, 20), (17, 21),
  (18, 22), (19, 23), (24, 28), (25, 29), (26, 30), (27, 31), (33, 37), (34, 36), (35, 38),
  (0, 7), (1, 10), (2, 9), (3, 8), (4, 12), (5, 13), (6, 11), (15, 24), (17, 20), (19, 22),
  (25, 33), (26, 34), (27, 35), (28, 32), (29, 37), (30, 36), (31, 38), (0, 15), (1, 26),
  (2, 25), (3, 28), (4, 30), (5, 29), (6, 27), (7, 24), (8, 32), (9, 33), (10, 34), (11, 35),
  (12, 36), (13, 37), (14, 31), (1, 2), (4, 9), (5, 10), (6, 8), (7, 16), (12, 13), (14, 21),
  (18, 24), (23, 31), (25, 26), (27, 32), (29, 34), (30, 33), (36, 37), (3, 18), (4, 6),
  (5, 25), (8, 9), (10, 24), (13, 34), (14, 29), (15, 16), (21, 35), (23, 38), (27, 30),
  (32, 33), (4, 17), (7, 15), (9, 20), (10, 16), (11, 21), (18, 28), (19, 27), (22, 33),
  (23, 29), (31, 38), (0, 7), (1, 4), (3, 15), (6, 9), (10, 18), (11, 12), (13, 22), (14, 19),
  (17, 25), (20, 24), (21, 29), (26, 28), (27, 32), (31, 35), (33, 37), (2, 6), (3, 7),
  (5, 14), (8, 19), (9, 16), (10, 15), (12, 25), (13, 26), (20, 30), (23, 27), (24, 34),
  (29, 31), (32, 36), (35, 38), (1, 3), (2, 15), (4, 5), (6, 18), (8, 17), (9, 13), (11, 23),
  (12, 19), (16, 28), (20, 26), (21, 32), (22, 30), (25, 27), (29, 36), (33, 34), (37, 38),
  (2, 7), (4, 10), (5, 8), (6, 9), (11, 17), (12, 14), (13, 20), (16, 18), (19, 25), (21, 23),
  (22, 28), (24, 26), (27, 32), (30, 33), (31, 34), (35, 36), (2, 3), (6, 10), (9, 15),
  (11, 12), (13, 16), (14, 17), (18, 20), (19, 21), (22, 24), (23, 25), (26, 28), (27, 29),
  (31, 32), (36, 37), (3, 4), (5, 9), (8, 15), (11, 13), (12, 18), (14, 16), (17, 20),
  (19, 22), (21, 26), (23, 24), (25, 28), (27, 30), (29, 33), (34, 36), (4, 7), (5, 6), (8, 9),
  (10, 11), (12, 14), (13, 15), (16, 17), (18, 19), (20, 21), (22, 23), (24, 26), (25, 27),
  (28, 31), (29, 30), (32, 33), (34, 35), (6, 7), (8, 10), (9, 11), (12, 13), (14, 15),
  (16, 18), (17, 19), (20, 22), (21, 23), (24, 25), (26, 27), (28, 29), (30, 31), (32, 34),
  (5, 6), (7, 8), (9, 10), (11, 12), (13, 14), (15, 16), (17, 18), (19, 20), (21, 22),
  (23, 24), (25, 26), (27, 28), (29, 30), (31, 32), (33, 34)]

/-- detail/sorting_network/sort40.h 27-291. -/
def net40 : List (Nat × Nat) := [
  (0, 1), (2, 3), (4, 5), (6, 7), (8, 9), (10, 11), (12, 13), (14, 15), (16, 17), (18, 19),
  (20, 21), (22, 23), (24, 25), (26, 27), (28, 29), (30, 31), (32, 33), (34, 35), (36, 37),
  (38, 39), (0, 2), (1, 3), (4, 6), (5, 7), (8, 10), (9, 11), (12, 14), (13, 15), (16, 18),
  (17, 19), (20, 22), (21, 23), (24, 26), (25, 27), (28, 30), (29, 31), (32, 34), (33, 35),
  (36, 38), (37, 39), (0, 4), (1, 5), (2, 6), (3, 7), (8, 12), (9, 13), (10, 14), (11, 15),
  (16, 20), (17, 21), (18, 22), (19, 23), (24, 28), (25, 29), (26, 30), (27, 31), (32, 36),
  (33, 37), (34, 38), (35, 39), (0, 8), (1, 9), (2, 10), (3, 11), (4, 12), (5, 13), (6, 14),
  (7, 15), (17, 20), (19, 22), (24, 32), (25, 33), (26, 34), (27, 35), (28, 36), (29, 37),
  (30, 38), (31, 39), (0, 24), (1, 25), (2, 26), (3, 27), (4, 28), (5, 29), (6, 30), (7, 31),
  (8, 32), (9, 33), (10, 34), (11, 35), (12, 36), (13, 37), (14, 38), (15, 39), (1, 2),
  (3, 12), (5, 10), (6, 9), (7, 21), (8, 16), (13, 14), (18, 32), (23, 31), (25, 26), (27, 36),
  (29, 34), (30, 33), (37, 38), (3, 6), (4, 18), (5, 25), (7, 29), (9, 12), (10, 32), (14, 34),
  (15, 23), (16, 24), (21, 35), (27, 30), (33, 36), (3, 17), (8, 16), (10, 24), (11, 21),
  (12, 20), (15, 29), (18, 28), (19, 27), (22, 36), (23, 31), (0, 8), (1, 3), (4, 16), (6, 12),
  (7, 19), (10, 18), (11, 13), (14, 22), (17, 25), (20, 32), (21, 29), (23, 35), (26, 28),
  (27, 33), (31, 39), (36, 38), (2, 6), (4, 8), (5, 7), (9, 19), (10, 16), (12, 24), (13, 25),
  (14, 26), (15, 27), (20, 30), (23, 29), (31, 35), (32, 34), (33, 37), (1, 4), (2, 16),
  (3, 5), (6, 18), (9, 17), (11, 15), (12, 14), (13, 19), (20, 26), (21, 33), (22, 30),
  (23, 37), (24, 28), (25, 27), (34, 36), (35, 38), (2, 8), (3, 10), (5, 9), (6, 12), (7, 13),
  (11, 17), (14, 20), (15, 21), (18, 24), (19, 25), (22, 28), (26, 32), (27, 33), (29, 36),
  (30, 34), (31, 37), (2, 4), (6, 10), (7, 11), (12, 16), (13, 17), (14, 18), (15, 19),
  (20, 24), (21, 25), (22, 26), (23, 27), (28, 32), (29, 33), (35, 37), (3, 4), (5, 12),
  (7, 14), (9, 16), (11, 20), (13, 18), (15, 22), (17, 24), (19, 28), (21, 26), (23, 30),
  (25, 32), (27, 34), (35, 36), (4, 8), (5, 6), (7, 10), (9, 12), (11, 13), (14, 16), (15, 20),
  (17, 18), (19, 24), (21, 22), (23, 25), (26, 28), (27, 30), (29, 32), (31, 35), (33, 34),
  (6, 8), (7, 9), (10, 12), (11, 14), (13, 16), (15, 17), (18, 20), (19, 21), (22, 24),
  (23, 26), (25, 28), (27, 29), (30, 32), (31, 33), (5, 6), (7, 8), (9, 10), (11, 12),
  (13, 14), (15, 16), (17, 18), (19, 20), (21, 22), (23, 24), (25, 26), (27, 28), (29, 30),
  (31, 32), (33, 34)]

/-- detail/sorting_network/sort40.h 299-317. -/
def netPairs40 : List (Nat × Nat) := [
  (0, 1), (2, 3), (4, 5), (6, 7), (8, 9), (10, 11), (12, 13), (14, 15), (16, 17), (18, 19),
  (20, 21), (22, 23), (24, 25), (26, 27), (28, 29), (30, 31), (32, 33), (34, 35), (36, 37),
  (38, 39), (0, 2), (1, 3), (4, 6), (5, 7), (8, 10), (9, 11), (12, 14), (13, 15), (16, 18),
  (17, 19), (20, 22), (21, 23), (24, 26), (25, 27), (28, 30), (29, 31), (32, 34), (33, 35),
  (36, 38), (37, 39), (0, 4), (1, 5), (2, 6), (3, 7), (8, 12), (9, 13), (10, 14), (11, 15),
  (16, 20), (17, 21), (18, 22), (19, 23), (24, 28), (25, 29), (26, 30), (27, 31), (32, 36),
  (33, 37), (34, 38), (35, 39), (0, 8), (1, 9), (2, 10), (3, 11), (4, 12), (5, 13), (6, 14),
  (7, 15), (17, 20), (19, 22), (24, 32), (25, 33), (26, 34), (27, 35), (28, 36), (29, 37),
  (30, 38), (31, 39), (0, 24), (1, 25), (2, 26), (3, 27), (4, 28), (5, 29), (6, 30), (7, 31),
  (8, 32), (9, 33), (10, 34), (11, 35), (12, 36), (13, 37), (14, 38), (15, 39), (1, 2),
  (3, 12), (5, 10), (6, 9), (7, 21), (8, 16), (13, 14), (18, 32), (23, 31), (25, 26), (27, 36),
  (29, 34), (30, 33), (37, 38), (3, 6), (4, 18), (5, 25), (7, 29), (9, 12), (10, 32), (14, 34),
  (15, 23), (16, 24), (21, 35), (27, 30), (33, 36), (3, 17), (8, 16), (10, 24), (11, 21),
  (12, 20), (15, 29), (18, 28), (19, 27), (22, 36), (23, 31), (0, 8), (1, 3), (4, 16), (6, 12),
  (7, 19), (10, 18), (11, 13), (14, 22), (17, 25), (20, 32), (21, 29), (23, 35), (26, 28),
  (27, 33), (31, 39), (36, 38), (2, 6), (4, 8), (5, 7), (9, 19), (10, 16), (12, 24), (13, 25),
  (14, 26), (15, 27), (20, 30), (23, 29), (31, 35), (32, 34), (33, 37), (1, 4), (2, 16),
  (3, 5), (6, 18), (9, 17), (11, 15), (12, 14), (13, 19), (20, 26), (21, 33), (22, 30),
  (23, 37), (24, 28), (25, 27), (34, 36), (35, 38), (2, 8), (3, 10), (5, 9), (6, 12), (7, 13),
  (11, 17), (14, 20), (15, 21), (18, 24), (19, 25), (22, 28), (26, 32), (27, 33), (29, 36),
  (30, 34), (31, 37), (2, 4), (6, 10), (7, 11), (12, 16), (13, 17), (14, 18), (15, 19),
  (20, 24), (21, 25), (22, 26), (23, 27), (28, 32), (29, 33), (35, 37), (3, 4), (5, 12),
  (7, 14), (9, 16), (11, 20), (13, 18), (15, 22), (17, 24), (19, 28), (21, 26), (23, 30),
  (25, 32), (27, 34), (35, 36), (4, 8), (5, 6), (7, 10), (9, 12), (11, 13), (14, 16), (15, 20),
  (17, 18), (19, 24), (21, 22), (23, 25), (26, 28), (27, 30), (29, 32), (31, 35), (33, 34),
  (6, 8), (7, 9), (10, 12), (11, 14), (13, 16), (15, 17), (18, 20), (19, 21), (22, 24),
  (23, 26), (25, 28), (27, 29), (30, 32), (31, 33), (5, 6), (7, 8), (9, 10), (11, 12),
  (13, 14), (15, 16), (17, 18), (19, 20), (21, 22), (23, 24), (25, 26), (27, 28), (29, 30),
  (31, 32), (33, 34)]

end CppSort
