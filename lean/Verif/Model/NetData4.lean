set_option autoImplicit false
/-
Sorting networks for 41 to 48 elements, transcribed from detail/sorting_network/sortN.h.
`netN` is the sequence of compare-exchanges of `operator()`, `netPairsN` the table of `index_pairs()`.
-/
namespace CppSort

/-- detail/sorting_network/sort41.h 27-308. -/
def net41 : List (Nat × Nat) := [
  (0, 1), (2, 3), (4, 5), (6, 7), (8, 9), (10, 11), (12, 13), (14, 15), (16, 17), (18, 19),
  (20, 21), (22, 23), (24, 25), (26, 27), (28, 29), (30, 31), (32, 35), (33, 39), (34, 37),
  (36, 40), (0, 2), (1, 3), (4, 6), (5, 7), (8, 10), (9, 11), (12, 14), (13, 15), (16, 18),
  (17, 19), (20, 22), (21, 23), (24, 26), (25, 27), (28, 30), (29, 31), (32, 39), (34, 36),
  (35, 40), (37, 38), (0, 4), (1, 5), (2, 6), (3, 7), (8, 12), (9, 13), (10, 14), (11, 15),
  (16, 20), (17, 21), (18, 22), (19, 23), (24, 28), (25, 29), (26, 30), (27, 31), (32, 34),
  (33, 35), (36, 37), (39, 40), (0, 8), (1, 9), (2, 10), (3, 11), (4, 12), (5, 13), (6, 14),
  (7, 15), (16, 24), (17, 25), (18, 26), (19, 27), (20, 28), (21, 29), (22, 30), (23, 31),
  (33, 36), (35, 38), (37, 39), (0, 16), (1, 17), (2, 18), (3, 19), (4, 20), (5, 21), (6, 22),
  (7, 23), (8, 24), (9, 25), (10, 26), (11, 27), (12, 28), (13, 29), (14, 30), (15, 31),
  (32, 33), (34, 36), (35, 37), (38, 40), (0, 32), (1, 2), (3, 12), (4, 8), (5, 10), (6, 9),
  (7, 11), (13, 14), (17, 18), (19, 28), (20, 24), (21, 26), (22, 25), (23, 27), (29, 30),
  (31, 40), (34, 35), (36, 37), (38, 39), (5, 6), (7, 13), (9, 10), (11, 39), (15, 31),
  (16, 32), (18, 24), (21, 22), (23, 29), (25, 26), (33, 34), (35, 36), (37, 38), (1, 36),
  (2, 33), (6, 17), (10, 21), (11, 22), (12, 37), (14, 38), (15, 19), (18, 34), (23, 25),
  (28, 35), (30, 39), (1, 16), (2, 4), (3, 28), (6, 18), (8, 33), (14, 34), (15, 36), (19, 29),
  (26, 37), (27, 38), (30, 35), (1, 2), (3, 20), (7, 14), (8, 16), (9, 28), (11, 34), (12, 33),
  (15, 32), (17, 26), (19, 27), (22, 30), (25, 36), (31, 38), (3, 4), (5, 15), (7, 18),
  (10, 32), (11, 20), (12, 17), (13, 25), (21, 33), (24, 34), (27, 36), (31, 35), (38, 39),
  (4, 16), (5, 6), (9, 11), (10, 15), (14, 24), (20, 28), (23, 32), (25, 34), (29, 35), (5, 8),
  (7, 10), (9, 12), (11, 17), (13, 23), (15, 21), (18, 20), (19, 32), (22, 28), (24, 25),
  (27, 34), (29, 37), (35, 38), (2, 5), (3, 8), (7, 9), (12, 16), (13, 14), (15, 18), (19, 26),
  (20, 21), (22, 24), (23, 33), (25, 28), (29, 30), (31, 32), (35, 37), (3, 5), (4, 9),
  (6, 12), (10, 16), (11, 13), (14, 17), (19, 23), (26, 33), (27, 29), (30, 34), (32, 36),
  (4, 7), (6, 8), (10, 12), (11, 15), (13, 20), (14, 18), (17, 21), (19, 22), (23, 25),
  (24, 26), (27, 31), (28, 33), (29, 32), (35, 36), (4, 6), (7, 8), (9, 11), (13, 15),
  (14, 16), (17, 19), (18, 20), (21, 23), (22, 24), (25, 26), (27, 28), (29, 33), (30, 31),
  (32, 34), (4, 5), (6, 7), (9, 10), (11, 12), (13, 14), (15, 16), (17, 18), (19, 20),
  (21, 22), (23, 24), (25, 27), (26, 28), (29, 30), (31, 33), (34, 35), (8, 9), (10, 11),
  (12, 13), (14, 15), (16, 17), (18, 19), (20, 21), (22, 23), (24, 25), (26, 27), (28, 29),
  (30, 31), (32, 33)]

/-- detail/sorting_network/sort41.h 316-336. -/
def netPairs41 : List (Nat × Nat) := [
  (0, 1), (2, 3), (4, 5), (6, 7), (8, 9), (10, 11), (12, 13), (14, 15), (16, 17), (18, 19),
  (20, 21), (22, 23), (24, 25), (26, 27), (28, 29), (30, 31), (32, 35), (33, 39), (34, 37),
  (36, 40), (0, 2), (1, 3), (4, 6), (5, 7), (8, 10), (9, 11), (12, 14), (13, 15), (16, 18),
  (17, 19), (20, 22), (21, 23), (24, 26), (25, 27), (28, 30), (29, 31), (32, 39), (34, 36),
  (35, 40), (37, 38), (0, 4), (1, 5), (2, 6), (3, 7), (8, 12), (9, 13), (10, 14), (11, 15),
  (16, 20), (17, 21), (18, 22), (19, 23), (24, 28), (25, 29), (26, 30), (27, 31), (32, 34),
  (33, 35), (36, 37), (39, 40), (0, 8), (1, 9), (2, 10), (3, 11), (4, 12), (5, 13), (6, 14),
  (7, 15), (16, 24), (17, 25), (18, 26), (19, 27), (20, 28), (21, 29), (22, 30), (23, 31),
  (33, 36), (35, 38), (37, 39), (0, 16), (1, 17), (2, 18), (3, 19), (4, 20), (5, 21), (6, 22),
  (7, 23), (8, 24), (9, 25), (10, 26), (11, 27), (12, 28), (13, 29), (14, 30), (15, 31),
  (32, 33), (34, 36), (35, 37), (38, 40), (0, 32), (1, 2), (3, 12), (4, 8), (5, 10), (6, 9),
  (7, 11), (13, 14), (17, 18), (19, 28), (20, 24), (21, 26), (22, 25), (23, 27), (29, 30),
  (31, 40), (34, 35), (36, 37), (38, 39), (5, 6), (7, 13), (9, 10), (11, 39), (15, 31),
  (16, 32), (18, 24), (21, 22), (23, 29), (25, 26), (33, 34), (35, 36), (37, 38), (1, 36),
  (2, 33), (6, 17), (10, 21), (11, 22), (12, 37), (14, 38), (15, 19), (18, 34), (23, 25),
  (28, 35), (30, 39), (1, 16), (2, 4), (3, 28), (6, 18), (8, 33), (14, 34), (15, 36), (19, 29),
  (26, 37), (27, 38), (30, 35), (1, 2), (3, 20), (7, 14), (8, 16), (9, 28), (11, 34), (12, 33),
  (15, 32), (17, 26), (19, 27), (22, 30), (25, 36), (31, 38), (3, 4), (5, 15), (7, 18),
  (10, 32), (11, 20), (12, 17), (13, 25), (21, 33), (24, 34), (27, 36), (31, 35), (38, 39),
  (4, 16), (5, 6), (9, 11), (10, 15), (14, 24), (20, 28), (23, 32), (25, 34), (29, 35), (5, 8),
  (7, 10), (9, 12), (11, 17), (13, 23), (15, 21), (18, 20), (19, 32), (22, 28), (24, 25),
  (27, 34), (29, 37), (35, 38), (2, 5), (3, 8), (7, 9), (12, 16), (13, 14), (15, 18), (19, 26),
  (20, 21), (22, 24), (23, 33), (25, 28), (29, 30), (31, 32), (35, 37), (3, 5), (4, 9),
  (6, 12), (10, 16), (11, 13), (14, 17), (19, 23), (26, 33), (27, 29), (30, 34), (32, 36),
  (4, 7), (6, 8), (10, 12), (11, 15), (13, 20), (14, 18), (17, 21), (19, 22), (23, 25),
  (24, 26), (27, 31), (28, 33), (29, 32), (35, 36), (4, 6), (7, 8), (9, 11), (13, 15),
  (14, 16), (17, 19), (18, 20), (21, 23), (22, 24), (25, 26), (27, 28), (29, 33), (30, 31),
  (32, 34), (4, 5), (6, 7), (9, 10), (11, 12), (13, 14), (15, 16), (17, 18), (19, 20),
  (21, 22), (23, 24), (25, 27), (26, 28), (29, 30), (31, 33), (34, 35), (8, 9), (10, 11),
  (12, 13), (14, 15), (16, 17), (18, 19), (20, 21), (22, 23), (24, 25), (26, 27), (28, 29),
  (30, 31), (32, 33)]

/-- detail/sorting_network/sort42.h 27-317. -/
def net42 : List (Nat × Nat) := [
  (0, 1), (2, 3), (4, 5), (6, 7), (8, 9), (10, 11), (12, 13), (14, 15), (16, 17), (18, 19),
  (20, 21), (22, 23), (24, 25), (26, 27), (28, 29), (30, 31), (32, 33), (34, 35), (36, 37),
  (38, 39), (40, 41), (0, 2), (1, 3), (4, 6), (5, 7), (8, 10), (9, 11), (12, 14), (13, 15),
  (16, 24), (17, 25), (18, 22), (19, 23), (26, 28), (27, 29), (30, 32), (31, 33), (34, 36),
  (35, 37), (38, 40), (39, 41), (0, 4), (1, 5), (2, 6), (3, 7), (8, 12), (9, 13), (10, 14),
  (11, 15), (16, 18), (17, 20), (19, 22), (21, 24), (23, 25), (26, 30), (27, 31), (28, 32),
  (29, 33), (34, 38), (35, 39), (36, 40), (37, 41), (0, 8), (1, 9), (2, 10), (3, 11), (4, 12),
  (5, 13), (6, 14), (7, 15), (17, 18), (19, 21), (20, 22), (23, 24), (26, 34), (27, 35),
  (28, 36), (29, 37), (30, 38), (31, 39), (32, 40), (33, 41), (0, 26), (1, 27), (2, 28),
  (3, 29), (4, 30), (5, 31), (6, 32), (7, 33), (8, 34), (9, 35), (10, 36), (11, 37), (12, 38),
  (13, 39), (14, 40), (15, 41), (16, 17), (18, 20), (21, 23), (24, 25), (0, 16), (1, 2),
  (3, 12), (4, 8), (5, 10), (6, 9), (7, 11), (13, 14), (17, 19), (20, 21), (22, 24), (25, 41),
  (27, 28), (29, 38), (30, 34), (31, 36), (32, 35), (33, 37), (39, 40), (4, 16), (5, 6),
  (7, 13), (9, 10), (14, 21), (15, 24), (17, 26), (18, 19), (20, 27), (22, 23), (25, 37),
  (28, 34), (31, 32), (35, 36), (1, 17), (2, 16), (3, 20), (5, 26), (8, 19), (11, 23),
  (12, 27), (14, 29), (15, 36), (18, 30), (21, 38), (22, 33), (24, 40), (25, 39), (1, 4),
  (3, 5), (6, 18), (7, 26), (8, 17), (9, 30), (10, 19), (11, 32), (14, 20), (15, 34), (16, 25),
  (21, 27), (22, 31), (23, 35), (24, 33), (36, 38), (37, 40), (2, 6), (9, 14), (11, 28),
  (12, 18), (13, 30), (16, 17), (19, 21), (20, 22), (23, 29), (24, 25), (27, 32), (35, 39),
  (2, 8), (5, 9), (6, 16), (7, 20), (10, 17), (11, 12), (13, 22), (15, 18), (19, 28), (21, 34),
  (23, 26), (24, 31), (25, 35), (29, 30), (32, 36), (33, 39), (4, 8), (7, 11), (10, 12),
  (13, 14), (17, 18), (23, 24), (27, 28), (29, 31), (30, 34), (33, 37), (2, 4), (6, 8),
  (9, 10), (11, 16), (12, 20), (15, 17), (18, 22), (19, 23), (21, 29), (24, 26), (25, 30),
  (31, 32), (33, 35), (37, 39), (3, 6), (5, 8), (7, 9), (10, 16), (12, 19), (13, 15), (14, 17),
  (18, 21), (20, 23), (22, 29), (24, 27), (25, 31), (26, 28), (32, 34), (33, 36), (35, 38),
  (3, 4), (6, 7), (8, 11), (12, 13), (14, 19), (15, 20), (17, 23), (18, 24), (21, 26),
  (22, 27), (28, 29), (30, 33), (34, 35), (37, 38), (5, 6), (7, 8), (9, 11), (10, 12),
  (13, 15), (14, 16), (17, 18), (19, 20), (21, 22), (23, 24), (25, 27), (26, 28), (29, 31),
  (30, 32), (33, 34), (35, 36), (6, 7), (9, 10), (11, 12), (13, 14), (15, 16), (17, 19),
  (18, 20), (21, 23), (22, 24), (25, 26), (27, 28), (29, 30), (31, 32), (34, 35), (8, 9),
  (10, 11), (12, 13), (14, 15), (16, 17), (18, 19), (20, 21), (22, 23), (24, 25), (26, 27),
  (28, 29), (30, 31), (32, 33)]

/-- detail/sorting_network/sort42.h 325-344. -/
def netPairs42 : List (Nat × Nat) := [
  (0, 1), (2, 3), (4, 5), (6, 7), (8, 9), (10, 11), (12, 13), (14, 15), (16, 17), (18, 19),
  (20, 21), (22, 23), (24, 25), (26, 27), (28, 29), (30, 31), (32, 33), (34, 35), (36, 37),
  (38, 39), (40, 41), (0, 2), (1, 3), (4, 6), (5, 7), (8, 10), (9, 11), (12, 14), (13, 15),
  (16, 24), (17, 25), (18, 22), (19, 23), (26, 28), (27, 29), (30, 32), (31, 33), (34, 36),
  (35, 37), (38, 40), (39, 41), (0, 4), (1, 5), (2, 6), (3, 7), (8, 12), (9, 13), (10, 14),
  (11, 15), (16, 18), (17, 20), (19, 22), (21, 24), (23, 25), (26, 30), (27, 31), (28, 32),
  (29, 33), (34, 38), (35, 39), (36, 40), (37, 41), (0, 8), (1, 9), (2, 10), (3, 11), (4, 12),
  (5, 13), (6, 14), (7, 15), (17, 18), (19, 21), (20, 22), (23, 24), (26, 34), (27, 35),
  (28, 36), (29, 37), (30, 38), (31, 39), (32, 40), (33, 41), (0, 26), (1, 27), (2, 28),
  (3, 29), (4, 30), (5, 31), (6, 32), (7, 33), (8, 34), (9, 35), (10, 36), (11, 37), (12, 38),
  (13, 39), (14, 40), (15, 41), (16, 17), (18, 20), (21, 23), (24, 25), (0, 16), (1, 2),
  (3, 12), (4, 8), (5, 10), (6, 9), (7, 11), (13, 14), (17, 19), (20, 21), (22, 24), (25, 41),
  (27, 28), (29, 38), (30, 34), (31, 36), (32, 35), (33, 37), (39, 40), (4, 16), (5, 6),
  (7, 13), (9, 10), (14, 21), (15, 24), (17, 26), (18, 19), (20, 27), (22, 23), (25, 37),
  (28, 34), (31, 32), (35, 36), (1, 17), (2, 16), (3, 20), (5, 26), (8, 19), (11, 23),
  (12, 27), (14, 29), (15, 36), (18, 30), (21, 38), (22, 33), (24, 40), (25, 39), (1, 4),
  (3, 5), (6, 18), (7, 26), (8, 17), (9, 30), (10, 19), (11, 32), (14, 20), (15, 34), (16, 25),
  (21, 27), (22, 31), (23, 35), (24, 33), (36, 38), (37, 40), (2, 6), (9, 14), (11, 28),
  (12, 18), (13, 30), (16, 17), (19, 21), (20, 22), (23, 29), (24, 25), (27, 32), (35, 39),
  (2, 8), (5, 9), (6, 16), (7, 20), (10, 17), (11, 12), (13, 22), (15, 18), (19, 28), (21, 34),
  (23, 26), (24, 31), (25, 35), (29, 30), (32, 36), (33, 39), (4, 8), (7, 11), (10, 12),
  (13, 14), (17, 18), (23, 24), (27, 28), (29, 31), (30, 34), (33, 37), (2, 4), (6, 8),
  (9, 10), (11, 16), (12, 20), (15, 17), (18, 22), (19, 23), (21, 29), (24, 26), (25, 30),
  (31, 32), (33, 35), (37, 39), (3, 6), (5, 8), (7, 9), (10, 16), (12, 19), (13, 15), (14, 17),
  (18, 21), (20, 23), (22, 29), (24, 27), (25, 31), (26, 28), (32, 34), (33, 36), (35, 38),
  (3, 4), (6, 7), (8, 11), (12, 13), (14, 19), (15, 20), (17, 23), (18, 24), (21, 26),
  (22, 27), (28, 29), (30, 33), (34, 35), (37, 38), (5, 6), (7, 8), (9, 11), (10, 12),
  (13, 15), (14, 16), (17, 18), (19, 20), (21, 22), (23, 24), (25, 27), (26, 28), (29, 31),
  (30, 32), (33, 34), (35, 36), (6, 7), (9, 10), (11, 12), (13, 14), (15, 16), (17, 19),
  (18, 20), (21, 23), (22, 24), (25, 26), (27, 28), (29, 30), (31, 32), (34, 35), (8, 9),
  (10, 11), (12, 13), (14, 15), (16, 17), (18, 19), (20, 21), (22, 23), (24, 25), (26, 27),
  (28, 29), (30, 31), (32, 33)]

/-- detail/sorting_network/sort43.h 27-329. -/
def net43 : List (Nat × Nat) := [
  (1, 2), (3, 6), (4, 5), (7, 14), (8, 9), (10, 11), (12, 13), (15, 42), (16, 17), (18, 19),
  (20, 21), (22, 23), (24, 25), (26, 27), (28, 29), (30, 31), (32, 33), (34, 35), (36, 37),
  (38, 39), (40, 41), (0, 1), (3, 4), (5, 6), (7, 12), (8, 10), (9, 11), (13, 14), (15, 40),
  (16, 18), (17, 19), (20, 22), (21, 23), (24, 26), (25, 27), (28, 30), (29, 31), (32, 34),
  (33, 35), (36, 38), (37, 39), (41, 42), (0, 3), (1, 4), (2, 5), (7, 8), (9, 13), (10, 12),
  (11, 14), (15, 36), (16, 24), (17, 25), (18, 26), (19, 27), (28, 32), (29, 33), (30, 34),
  (31, 35), (37, 41), (38, 40), (39, 42), (0, 7), (1, 10), (2, 9), (3, 8), (4, 12), (5, 13),
  (6, 11), (15, 28), (16, 20), (17, 21), (18, 24), (19, 25), (22, 26), (23, 27), (29, 37),
  (30, 38), (31, 39), (32, 36), (33, 41), (34, 40), (35, 42), (0, 15), (1, 30), (2, 29),
  (3, 32), (4, 34), (5, 33), (6, 31), (7, 28), (8, 36), (9, 37), (10, 38), (11, 39), (12, 40),
  (13, 41), (14, 35), (17, 20), (18, 22), (21, 25), (23, 26), (27, 42), (0, 16), (1, 2),
  (3, 7), (4, 9), (5, 10), (6, 8), (11, 14), (12, 13), (17, 18), (19, 23), (20, 24), (25, 26),
  (28, 32), (29, 30), (31, 36), (33, 38), (34, 37), (35, 39), (40, 41), (4, 5), (9, 10),
  (12, 14), (15, 16), (18, 20), (19, 22), (21, 24), (23, 25), (27, 40), (28, 30), (33, 34),
  (37, 38), (2, 16), (7, 20), (8, 24), (11, 21), (13, 25), (14, 26), (17, 28), (18, 29),
  (19, 31), (22, 32), (23, 35), (1, 17), (2, 7), (3, 18), (5, 22), (6, 19), (8, 16), (12, 23),
  (13, 28), (14, 29), (20, 30), (21, 37), (24, 36), (25, 39), (26, 41), (27, 31), (35, 40),
  (3, 15), (5, 18), (6, 17), (7, 8), (9, 13), (10, 16), (11, 19), (14, 20), (23, 28), (24, 32),
  (25, 37), (26, 36), (27, 33), (29, 34), (31, 35), (39, 42), (1, 3), (2, 15), (4, 11), (5, 7),
  (8, 18), (9, 17), (10, 22), (12, 27), (13, 19), (16, 30), (21, 33), (24, 29), (25, 31),
  (26, 34), (32, 38), (35, 37), (39, 40), (41, 42), (2, 3), (6, 15), (7, 8), (10, 14),
  (11, 12), (13, 27), (16, 29), (20, 22), (21, 23), (28, 33), (30, 32), (31, 35), (36, 39),
  (40, 41), (4, 6), (5, 15), (8, 10), (12, 21), (13, 17), (14, 18), (16, 24), (19, 27),
  (22, 30), (25, 28), (26, 29), (31, 33), (36, 37), (38, 39), (3, 4), (6, 9), (7, 15),
  (11, 13), (12, 17), (16, 20), (19, 21), (22, 24), (23, 27), (26, 30), (29, 32), (34, 38),
  (35, 36), (39, 40), (4, 5), (6, 8), (9, 15), (14, 16), (17, 19), (18, 20), (23, 25),
  (24, 26), (27, 28), (33, 38), (34, 35), (37, 39), (6, 7), (10, 15), (11, 14), (12, 16),
  (13, 18), (20, 22), (21, 23), (25, 29), (27, 30), (28, 32), (31, 34), (36, 38), (5, 6),
  (8, 11), (12, 15), (13, 14), (16, 18), (17, 20), (19, 22), (21, 24), (23, 26), (25, 27),
  (28, 29), (30, 31), (32, 33), (37, 38), (8, 9), (10, 11), (12, 13), (14, 15), (16, 17),
  (18, 19), (20, 21), (22, 23), (24, 25), (26, 27), (28, 30), (29, 31), (32, 34), (33, 35),
  (7, 8), (9, 10), (11, 12), (13, 14), (15, 16), (17, 18), (19, 20), (21, 22), (23, 24),
  (25, 26), (27, 28), (29, 30), (31, 32), (33, 34), (35, 36)]

/-- detail/sorting_network/sort43.h 337-357. -/
def netPairs43 : List (Nat × Nat) := [
  (1, 2), (3, 6), (4, 5), (7, 14), (8, 9), (10, 11), (12, 13), (15, 42), (16, 17), (18, 19),
  (20, 21), (22, 23), (24, 25), (26, 27), (28, 29), (30, 31), (32, 33), (34, 35), (36, 37),
  (38, 39), (40, 41), (0, 1), (3, 4), (5, 6), (7, 12), (8, 10), (9, 11), (13, 14), (15, 40),
  (16, 18), (17, 19), (20, 22), (21, 23), (24, 26), (25, 27), (28, 30), (29, 31), (32, 34),
  (33, 35), (36, 38), (37, 39), (41, 42), (0, 3), (1, 4), (2, 5), (7, 8), (9, 13), (10, 12),
  (11, 14), (15, 36), (16, 24), (17, 25), (18, 26), (19, 27), (28, 32), (29, 33), (30, 34),
  (31, 35), (37, 41), (38, 40), (39, 42), (0, 7), (1, 10), (2, 9), (3, 8), (4, 12), (5, 13),
  (6, 11), (15, 28), (16, 20), (17, 21), (18, 24), (19, 25), (22, 26), (23, 27), (29, 37),
  (30, 38), (31, 39), (32, 36), (33, 41), (34, 40), (35, 42), (0, 15), (1, 30), (2, 29),
  (3, 32), (4, 34), (5, 33), (6, 31), (7, 28), (8, 36), (9, 37), (10, 38), (11, 39), (12, 40),
  (13, 41), (14, 35), (17, 20), (18, 22), (21, 25), (23, 26), (27, 42), (0, 16), (1, 2),
  (3, 7), (4, 9), (5, 10), (6, 8), (11, 14), (12, 13), (17, 18), (19, 23), (20, 24), (25, 26),
  (28, 32), (29, 30), (31, 36), (33, 38), (34, 37), (35, 39), (40, 41), (4, 5), (9, 10),
  (12, 14), (15, 16), (18, 20), (19, 22), (21, 24), (23, 25), (27, 40), (28, 30), (33, 34),
  (37, 38), (2, 16), (7, 20), (8, 24), (11, 21), (13, 25), (14, 26), (17, 28), (18, 29),
  (19, 31), (22, 32), (23, 35), (1, 17), (2, 7), (3, 18), (5, 22), (6, 19), (8, 16), (12, 23),
  (13, 28), (14, 29), (20, 30), (21, 37), (24, 36), (25, 39), (26, 41), (27, 31), (35, 40),
  (3, 15), (5, 18), (6, 17), (7, 8), (9, 13), (10, 16), (11, 19), (14, 20), (23, 28), (24, 32),
  (25, 37), (26, 36), (27, 33), (29, 34), (31, 35), (39, 42), (1, 3), (2, 15), (4, 11), (5, 7),
  (8, 18), (9, 17), (10, 22), (12, 27), (13, 19), (16, 30), (21, 33), (24, 29), (25, 31),
  (26, 34), (32, 38), (35, 37), (39, 40), (41, 42), (2, 3), (6, 15), (7, 8), (10, 14),
  (11, 12), (13, 27), (16, 29), (20, 22), (21, 23), (28, 33), (30, 32), (31, 35), (36, 39),
  (40, 41), (4, 6), (5, 15), (8, 10), (12, 21), (13, 17), (14, 18), (16, 24), (19, 27),
  (22, 30), (25, 28), (26, 29), (31, 33), (36, 37), (38, 39), (3, 4), (6, 9), (7, 15),
  (11, 13), (12, 17), (16, 20), (19, 21), (22, 24), (23, 27), (26, 30), (29, 32), (34, 38),
  (35, 36), (39, 40), (4, 5), (6, 8), (9, 15), (14, 16), (17, 19), (18, 20), (23, 25),
  (24, 26), (27, 28), (33, 38), (34, 35), (37, 39), (6, 7), (10, 15), (11, 14), (12, 16),
  (13, 18), (20, 22), (21, 23), (25, 29), (27, 30), (28, 32), (31, 34), (36, 38), (5, 6),
  (8, 11), (12, 15), (13, 14), (16, 18), (17, 20), (19, 22), (21, 24), (23, 26), (25, 27),
  (28, 29), (30, 31), (32, 33), (37, 38), (8, 9), (10, 11), (12, 13), (14, 15), (16, 17),
  (18, 19), (20, 21), (22, 23), (24, 25), (26, 27), (28, 30), (29, 31), (32, 34), (33, 35),
  (7, 8), (9, 10), (11, 12), (13, 14), (15, 16), (17, 18), (19, 20), (21, 22), (23, 24),
  (25, 26), (27, 28), (29, 30), (31, 32), (33, 34), (35, 36)]

/-- detail/sorting_network/sort44.h 27-335. -/
def net44 : List (Nat × Nat) := [
  (0, 1), (2, 3), (4, 5), (6, 7), (8, 9), (10, 11), (12, 13), (14, 15), (16, 17), (18, 19),
  (20, 21), (22, 23), (24, 25), (26, 27), (28, 29), (30, 31), (32, 33), (34, 35), (36, 37),
  (38, 39), (40, 41), (42, 43), (0, 2), (1, 3), (4, 6), (5, 7), (8, 10), (9, 11), (12, 14),
  (13, 15), (16, 18), (17, 19), (20, 22), (21, 23), (24, 26), (25, 27), (28, 30), (29, 31),
  (32, 34), (33, 35), (36, 38), (37, 39), (40, 42), (41, 43), (0, 4), (1, 5), (2, 6), (3, 7),
  (8, 12), (9, 13), (10, 14), (11, 15), (16, 24), (17, 25), (18, 26), (19, 27), (28, 32),
  (29, 33), (30, 34), (31, 35), (36, 40), (37, 41), (38, 42), (39, 43), (0, 8), (1, 9),
  (2, 10), (3, 11), (4, 12), (5, 13), (6, 14), (7, 15), (16, 20), (17, 21), (18, 24), (19, 25),
  (22, 26), (23, 27), (28, 36), (29, 37), (30, 38), (31, 39), (32, 40), (33, 41), (34, 42),
  (35, 43), (0, 28), (1, 29), (2, 30), (3, 31), (4, 32), (5, 33), (6, 34), (7, 35), (8, 36),
  (9, 37), (10, 38), (11, 39), (12, 40), (13, 41), (14, 42), (15, 43), (17, 20), (18, 22),
  (21, 25), (23, 26), (0, 16), (1, 2), (3, 12), (4, 8), (5, 10), (6, 9), (7, 11), (13, 14),
  (17, 18), (19, 23), (20, 24), (25, 26), (27, 43), (29, 30), (31, 40), (32, 36), (33, 38),
  (34, 37), (35, 39), (41, 42), (5, 6), (9, 10), (11, 13), (15, 27), (16, 28), (18, 20),
  (19, 22), (21, 24), (23, 25), (30, 32), (33, 34), (37, 38), (2, 28), (7, 21), (8, 20),
  (12, 24), (13, 26), (14, 25), (15, 41), (17, 30), (18, 29), (19, 31), (22, 36), (23, 35),
  (1, 17), (2, 8), (3, 19), (4, 18), (6, 22), (11, 23), (12, 28), (13, 29), (14, 30), (15, 31),
  (20, 32), (21, 37), (24, 40), (25, 39), (26, 42), (35, 41), (3, 17), (4, 16), (6, 18),
  (7, 19), (8, 12), (9, 14), (10, 28), (13, 20), (15, 33), (23, 30), (24, 36), (25, 37),
  (26, 40), (27, 39), (29, 34), (31, 35), (1, 4), (2, 16), (5, 7), (6, 8), (9, 17), (10, 22),
  (11, 15), (12, 18), (14, 19), (21, 33), (24, 29), (25, 31), (26, 34), (27, 41), (28, 32),
  (35, 37), (36, 38), (39, 42), (2, 4), (3, 16), (7, 11), (8, 12), (10, 13), (14, 15),
  (20, 22), (21, 23), (27, 40), (28, 29), (30, 33), (31, 35), (32, 36), (39, 41), (3, 5),
  (6, 16), (10, 12), (11, 21), (13, 18), (14, 17), (15, 19), (22, 32), (24, 28), (25, 30),
  (26, 29), (27, 37), (31, 33), (38, 40), (3, 4), (5, 9), (7, 14), (8, 16), (11, 17), (15, 21),
  (19, 23), (20, 24), (22, 28), (26, 32), (27, 35), (29, 36), (34, 38), (39, 40), (4, 6),
  (5, 10), (9, 16), (13, 20), (15, 17), (18, 24), (19, 25), (23, 30), (26, 28), (27, 34),
  (33, 38), (37, 39), (5, 8), (7, 13), (11, 20), (12, 16), (14, 18), (19, 21), (22, 24),
  (23, 32), (25, 29), (27, 31), (30, 36), (35, 38), (5, 6), (7, 10), (11, 16), (13, 14),
  (15, 22), (17, 24), (18, 20), (19, 26), (21, 28), (23, 25), (27, 32), (29, 30), (33, 36),
  (37, 38), (7, 9), (10, 12), (11, 13), (14, 16), (15, 18), (17, 20), (19, 22), (21, 24),
  (23, 26), (25, 28), (27, 29), (30, 32), (31, 33), (34, 36), (7, 8), (9, 10), (11, 12),
  (13, 14), (15, 16), (17, 18), (19, 20), (21, 22), (23, 24), (25, 26), (27, 28), (29, 30),
  (31, 32), (33, 34), (35, 36)]

/-- detail/sorting_network/sort44.h 343-363. -/
def netPairs44 : List (Nat × Nat) := [
  (0, 1), (2, 3), (4, 5), (6, 7), (8, 9), (10, 11), (12, 13), (14, 15), (16, 17), (18, 19),
  (20, 21), (22, 23), (24, 25), (26, 27), (28, 29), (30, 31), (32, 33), (34, 35), (36, 37),
  (38, 39), (40, 41), (42, 43), (0, 2), (1, 3), (4, 6), (5, 7), (8, 10), (9, 11), (12, 14),
  (13, 15), (16, 18), (17, 19), (20, 22), (21, 23), (24, 26), (25, 27), (28, 30), (29, 31),
  (32, 34), (33, 35), (36, 38), (37, 39), (40, 42), (41, 43), (0, 4), (1, 5), (2, 6), (3, 7),
  (8, 12), (9, 13), (10, 14), (11, 15), (16, 24), (17, 25), (18, 26), (19, 27), (28, 32),
  (29, 33), (30, 34), (31, 35), (36, 40), (37, 41), (38, 42), (39, 43), (0, 8), (1, 9),
  (2, 10), (3, 11), (4, 12), (5, 13), (6, 14), (7, 15), (16, 20), (17, 21), (18, 24), (19, 25),
  (22, 26), (23, 27), (28, 36), (29, 37), (30, 38), (31, 39), (32, 40), (33, 41), (34, 42),
  (35, 43), (0, 28), (1, 29), (2, 30), (3, 31), (4, 32), (5, 33), (6, 34), (7, 35), (8, 36),
  (9, 37), (10, 38), (11, 39), (12, 40), (13, 41), (14, 42), (15, 43), (17, 20), (18, 22),
  (21, 25), (23, 26), (0, 16), (1, 2), (3, 12), (4, 8), (5, 10), (6, 9), (7, 11), (13, 14),
  (17, 18), (19, 23), (20, 24), (25, 26), (27, 43), (29, 30), (31, 40), (32, 36), (33, 38),
  (34, 37), (35, 39), (41, 42), (5, 6), (9, 10), (11, 13), (15, 27), (16, 28), (18, 20),
  (19, 22), (21, 24), (23, 25), (30, 32), (33, 34), (37, 38), (2, 28), (7, 21), (8, 20),
  (12, 24), (13, 26), (14, 25), (15, 41), (17, 30), (18, 29), (19, 31), (22, 36), (23, 35),
  (1, 17), (2, 8), (3, 19), (4, 18), (6, 22), (11, 23), (12, 28), (13, 29), (14, 30), (15, 31),
  (20, 32), (21, 37), (24, 40), (25, 39), (26, 42), (35, 41), (3, 17), (4, 16), (6, 18),
  (7, 19), (8, 12), (9, 14), (10, 28), (13, 20), (15, 33), (23, 30), (24, 36), (25, 37),
  (26, 40), (27, 39), (29, 34), (31, 35), (1, 4), (2, 16), (5, 7), (6, 8), (9, 17), (10, 22),
  (11, 15), (12, 18), (14, 19), (21, 33), (24, 29), (25, 31), (26, 34), (27, 41), (28, 32),
  (35, 37), (36, 38), (39, 42), (2, 4), (3, 16), (7, 11), (8, 12), (10, 13), (14, 15),
  (20, 22), (21, 23), (27, 40), (28, 29), (30, 33), (31, 35), (32, 36), (39, 41), (3, 5),
  (6, 16), (10, 12), (11, 21), (13, 18), (14, 17), (15, 19), (22, 32), (24, 28), (25, 30),
  (26, 29), (27, 37), (31, 33), (38, 40), (3, 4), (5, 9), (7, 14), (8, 16), (11, 17), (15, 21),
  (19, 23), (20, 24), (22, 28), (26, 32), (27, 35), (29, 36), (34, 38), (39, 40), (4, 6),
  (5, 10), (9, 16), (13, 20), (15, 17), (18, 24), (19, 25), (23, 30), (26, 28), (27, 34),
  (33, 38), (37, 39), (5, 8), (7, 13), (11, 20), (12, 16), (14, 18), (19, 21), (22, 24),
  (23, 32), (25, 29), (27, 31), (30, 36), (35, 38), (5, 6), (7, 10), (11, 16), (13, 14),
  (15, 22), (17, 24), (18, 20), (19, 26), (21, 28), (23, 25), (27, 32), (29, 30), (33, 36),
  (37, 38), (7, 9), (10, 12), (11, 13), (14, 16), (15, 18), (17, 20), (19, 22), (21, 24),
  (23, 26), (25, 28), (27, 29), (30, 32), (31, 33), (34, 36), (7, 8), (9, 10), (11, 12),
  (13, 14), (15, 16), (17, 18), (19, 20), (21, 22), (23, 24), (25, 26), (27, 28), (29, 30),
  (31, 32), (33, 34), (35, 36)]

/-- detail/sorting_network/sort45.h 27-350. -/
def net45 : List (Nat × Nat) := [
  (3, 12), (4, 8), (5, 6), (7, 11), (9, 10), (13, 32), (14, 35), (15, 18), (16, 29), (17, 28),
  (19, 30), (20, 24), (21, 22), (23, 27), (25, 26), (31, 34), (33, 44), (36, 40), (37, 38),
  (39, 43), (41, 42), (0, 5), (1, 7), (2, 9), (3, 4), (8, 12), (10, 11), (13, 37), (14, 36),
  (15, 25), (16, 21), (17, 23), (18, 26), (19, 20), (22, 29), (24, 30), (27, 28), (31, 41),
  (32, 38), (33, 39), (34, 42), (35, 40), (43, 44), (0, 1), (2, 3), (4, 5), (6, 8), (7, 9),
  (13, 33), (14, 31), (15, 19), (16, 17), (18, 27), (20, 21), (22, 24), (23, 25), (26, 30),
  (28, 29), (32, 35), (34, 43), (36, 37), (38, 44), (39, 41), (40, 42), (0, 2), (1, 3),
  (4, 10), (5, 11), (6, 7), (8, 9), (13, 14), (15, 16), (17, 19), (18, 20), (21, 27), (22, 23),
  (24, 25), (26, 28), (29, 30), (31, 33), (32, 39), (34, 36), (35, 41), (37, 43), (38, 40),
  (42, 44), (1, 2), (3, 12), (4, 6), (5, 7), (8, 10), (9, 11), (13, 15), (14, 31), (16, 17),
  (18, 22), (19, 26), (20, 24), (21, 23), (25, 27), (28, 29), (30, 44), (32, 34), (33, 38),
  (35, 36), (37, 39), (40, 42), (41, 43), (0, 13), (1, 4), (2, 6), (3, 19), (5, 8), (7, 10),
  (14, 32), (16, 18), (17, 22), (20, 21), (23, 24), (25, 28), (26, 38), (27, 29), (31, 34),
  (35, 37), (36, 39), (40, 41), (42, 43), (1, 14), (2, 31), (3, 33), (5, 35), (8, 21), (9, 25),
  (10, 39), (11, 27), (12, 38), (13, 15), (18, 32), (22, 34), (23, 36), (28, 41), (29, 43),
  (1, 16), (4, 18), (5, 20), (6, 22), (7, 36), (8, 37), (12, 26), (17, 31), (19, 33), (24, 39),
  (25, 40), (27, 42), (2, 17), (4, 13), (5, 15), (7, 23), (8, 19), (9, 25), (10, 24), (11, 27),
  (14, 16), (18, 32), (20, 35), (21, 37), (22, 34), (26, 36), (30, 39), (40, 43), (42, 44),
  (1, 4), (2, 5), (3, 13), (6, 14), (7, 31), (9, 16), (12, 15), (19, 21), (23, 26), (28, 37),
  (29, 34), (30, 33), (38, 42), (2, 4), (3, 6), (7, 18), (9, 14), (11, 31), (12, 17), (13, 20),
  (15, 22), (16, 23), (21, 29), (24, 38), (25, 30), (27, 37), (28, 32), (33, 41), (34, 40),
  (42, 43), (3, 4), (5, 6), (7, 13), (9, 12), (10, 22), (11, 20), (15, 28), (16, 21), (23, 29),
  (24, 32), (25, 35), (30, 31), (37, 38), (39, 42), (40, 41), (43, 44), (4, 5), (6, 7),
  (8, 15), (10, 25), (11, 16), (13, 14), (19, 28), (20, 21), (22, 35), (23, 24), (26, 30),
  (29, 32), (31, 36), (34, 37), (38, 39), (42, 43), (7, 12), (8, 13), (10, 17), (14, 18),
  (15, 19), (20, 23), (21, 24), (22, 26), (25, 28), (27, 34), (30, 31), (33, 35), (36, 37),
  (38, 40), (8, 9), (10, 15), (11, 14), (12, 13), (16, 18), (17, 19), (22, 25), (26, 28),
  (27, 29), (30, 33), (31, 35), (32, 34), (36, 38), (37, 41), (6, 8), (10, 11), (14, 15),
  (16, 17), (18, 19), (20, 22), (21, 26), (23, 25), (24, 28), (27, 30), (29, 33), (31, 32),
  (34, 35), (39, 41), (5, 6), (9, 10), (11, 14), (13, 16), (15, 17), (18, 20), (19, 22),
  (21, 23), (24, 27), (25, 26), (28, 30), (29, 31), (32, 34), (33, 36), (35, 37), (41, 42),
  (7, 9), (10, 12), (11, 13), (14, 16), (15, 18), (17, 20), (19, 21), (22, 23), (24, 25),
  (26, 27), (28, 29), (30, 31), (32, 33), (34, 36), (35, 38), (37, 40), (7, 8), (9, 10),
  (11, 12), (13, 14), (15, 16), (17, 18), (19, 20), (21, 22), (23, 24), (25, 26), (27, 28),
  (29, 30), (31, 32), (33, 34), (35, 36), (37, 38), (39, 40)]

/-- detail/sorting_network/sort45.h 358-378. -/
def netPairs45 : List (Nat × Nat) := [
  (3, 12), (4, 8), (5, 6), (7, 11), (9, 10), (13, 32), (14, 35), (15, 18), (16, 29), (17, 28),
  (19, 30), (20, 24), (21, 22), (23, 27), (25, 26), (31, 34), (33, 44), (36, 40), (37, 38),
  (39, 43), (41, 42), (0, 5), (1, 7), (2, 9), (3, 4), (8, 12), (10, 11), (13, 37), (14, 36),
  (15, 25), (16, 21), (17, 23), (18, 26), (19, 20), (22, 29), (24, 30), (27, 28), (31, 41),
  (32, 38), (33, 39), (34, 42), (35, 40), (43, 44), (0, 1), (2, 3), (4, 5), (6, 8), (7, 9),
  (13, 33), (14, 31), (15, 19), (16, 17), (18, 27), (20, 21), (22, 24), (23, 25), (26, 30),
  (28, 29), (32, 35), (34, 43), (36, 37), (38, 44), (39, 41), (40, 42), (0, 2), (1, 3),
  (4, 10), (5, 11), (6, 7), (8, 9), (13, 14), (15, 16), (17, 19), (18, 20), (21, 27), (22, 23),
  (24, 25), (26, 28), (29, 30), (31, 33), (32, 39), (34, 36), (35, 41), (37, 43), (38, 40),
  (42, 44), (1, 2), (3, 12), (4, 6), (5, 7), (8, 10), (9, 11), (13, 15), (14, 31), (16, 17),
  (18, 22), (19, 26), (20, 24), (21, 23), (25, 27), (28, 29), (30, 44), (32, 34), (33, 38),
  (35, 36), (37, 39), (40, 42), (41, 43), (0, 13), (1, 4), (2, 6), (3, 19), (5, 8), (7, 10),
  (14, 32), (16, 18), (17, 22), (20, 21), (23, 24), (25, 28), (26, 38), (27, 29), (31, 34),
  (35, 37), (36, 39), (40, 41), (42, 43), (1, 14), (2, 31), (3, 33), (5, 35), (8, 21), (9, 25),
  (10, 39), (11, 27), (12, 38), (13, 15), (18, 32), (22, 34), (23, 36), (28, 41), (29, 43),
  (1, 16), (4, 18), (5, 20), (6, 22), (7, 36), (8, 37), (12, 26), (17, 31), (19, 33), (24, 39),
  (25, 40), (27, 42), (2, 17), (4, 13), (5, 15), (7, 23), (8, 19), (9, 25), (10, 24), (11, 27),
  (14, 16), (18, 32), (20, 35), (21, 37), (22, 34), (26, 36), (30, 39), (40, 43), (42, 44),
  (1, 4), (2, 5), (3, 13), (6, 14), (7, 31), (9, 16), (12, 15), (19, 21), (23, 26), (28, 37),
  (29, 34), (30, 33), (38, 42), (2, 4), (3, 6), (7, 18), (9, 14), (11, 31), (12, 17), (13, 20),
  (15, 22), (16, 23), (21, 29), (24, 38), (25, 30), (27, 37), (28, 32), (33, 41), (34, 40),
  (42, 43), (3, 4), (5, 6), (7, 13), (9, 12), (10, 22), (11, 20), (15, 28), (16, 21), (23, 29),
  (24, 32), (25, 35), (30, 31), (37, 38), (39, 42), (40, 41), (43, 44), (4, 5), (6, 7),
  (8, 15), (10, 25), (11, 16), (13, 14), (19, 28), (20, 21), (22, 35), (23, 24), (26, 30),
  (29, 32), (31, 36), (34, 37), (38, 39), (42, 43), (7, 12), (8, 13), (10, 17), (14, 18),
  (15, 19), (20, 23), (21, 24), (22, 26), (25, 28), (27, 34), (30, 31), (33, 35), (36, 37),
  (38, 40), (8, 9), (10, 15), (11, 14), (12, 13), (16, 18), (17, 19), (22, 25), (26, 28),
  (27, 29), (30, 33), (31, 35), (32, 34), (36, 38), (37, 41), (6, 8), (10, 11), (14, 15),
  (16, 17), (18, 19), (20, 22), (21, 26), (23, 25), (24, 28), (27, 30), (29, 33), (31, 32),
  (34, 35), (39, 41), (5, 6), (9, 10), (11, 14), (13, 16), (15, 17), (18, 20), (19, 22),
  (21, 23), (24, 27), (25, 26), (28, 30), (29, 31), (32, 34), (33, 36), (35, 37), (41, 42),
  (7, 9), (10, 12), (11, 13), (14, 16), (15, 18), (17, 20), (19, 21), (22, 23), (24, 25),
  (26, 27), (28, 29), (30, 31), (32, 33), (34, 36), (35, 38), (37, 40), (7, 8), (9, 10),
  (11, 12), (13, 14), (15, 16), (17, 18), (19, 20), (21, 22), (23, 24), (25, 26), (27, 28),
  (29, 30), (31, 32), (33, 34), (35, 36), (37, 38), (39, 40)]

/-- detail/sorting_network/sort46.h 27-358. -/
def net46 : List (Nat × Nat) := [
  (2, 13), (3, 12), (4, 8), (5, 6), (7, 11), (9, 10), (14, 35), (15, 18), (16, 29), (17, 28),
  (19, 30), (20, 24), (21, 22), (23, 27), (25, 26), (31, 34), (32, 45), (33, 44), (36, 40),
  (37, 38), (39, 43), (41, 42), (0, 5), (1, 7), (2, 9), (3, 4), (8, 12), (10, 13), (14, 36),
  (15, 25), (16, 21), (17, 23), (18, 26), (19, 20), (22, 29), (24, 30), (27, 28), (31, 41),
  (32, 37), (33, 39), (34, 42), (35, 40), (38, 45), (43, 44), (0, 1), (2, 3), (4, 5), (6, 8),
  (7, 9), (10, 11), (12, 13), (14, 31), (15, 19), (16, 17), (18, 27), (20, 21), (22, 24),
  (23, 25), (26, 30), (28, 29), (32, 33), (34, 43), (35, 38), (36, 37), (39, 41), (40, 42),
  (44, 45), (0, 2), (1, 3), (4, 10), (5, 11), (6, 7), (8, 9), (14, 32), (15, 16), (17, 19),
  (18, 20), (21, 27), (22, 23), (24, 25), (26, 28), (29, 30), (31, 33), (34, 36), (35, 39),
  (37, 43), (38, 41), (40, 44), (42, 45), (1, 2), (3, 12), (4, 6), (5, 7), (8, 10), (9, 11),
  (14, 15), (16, 17), (18, 22), (19, 26), (20, 24), (21, 23), (25, 27), (28, 29), (30, 45),
  (31, 32), (33, 40), (34, 35), (36, 38), (37, 39), (41, 43), (42, 44), (0, 14), (1, 4),
  (2, 6), (3, 19), (5, 8), (7, 10), (9, 13), (16, 18), (17, 22), (20, 21), (23, 24), (25, 28),
  (26, 40), (27, 29), (31, 34), (32, 35), (36, 37), (38, 39), (41, 42), (43, 44), (1, 31),
  (2, 32), (3, 33), (5, 36), (8, 21), (9, 25), (10, 39), (11, 27), (12, 40), (13, 42),
  (14, 15), (18, 34), (22, 35), (23, 38), (29, 44), (1, 16), (4, 18), (5, 20), (6, 22),
  (7, 38), (8, 37), (12, 26), (13, 28), (17, 32), (19, 33), (24, 39), (25, 41), (27, 43),
  (2, 17), (4, 14), (5, 15), (7, 23), (8, 19), (9, 25), (10, 24), (11, 27), (16, 31), (18, 34),
  (20, 36), (21, 37), (22, 35), (26, 38), (28, 42), (30, 39), (41, 44), (43, 45), (1, 4),
  (2, 5), (3, 14), (6, 16), (7, 32), (9, 31), (12, 15), (13, 37), (19, 21), (23, 26), (29, 35),
  (30, 33), (39, 42), (40, 43), (2, 4), (3, 6), (7, 18), (9, 16), (11, 32), (12, 17), (13, 34),
  (14, 20), (15, 22), (21, 29), (23, 31), (24, 40), (25, 30), (27, 37), (28, 33), (35, 41),
  (42, 45), (43, 44), (3, 4), (5, 6), (7, 14), (9, 12), (10, 22), (11, 20), (13, 15), (21, 23),
  (24, 34), (25, 36), (29, 31), (30, 32), (33, 41), (37, 40), (39, 43), (42, 44), (4, 5),
  (6, 7), (8, 13), (10, 25), (11, 21), (14, 16), (15, 19), (20, 23), (22, 36), (24, 29),
  (26, 30), (31, 34), (32, 38), (35, 37), (39, 40), (42, 43), (7, 12), (8, 14), (10, 17),
  (13, 15), (16, 18), (19, 25), (20, 24), (22, 26), (23, 29), (27, 35), (28, 36), (30, 32),
  (33, 39), (37, 38), (8, 9), (10, 13), (11, 16), (12, 14), (15, 17), (18, 21), (19, 22),
  (25, 26), (27, 31), (28, 30), (32, 36), (33, 37), (34, 35), (38, 41), (6, 8), (10, 11),
  (13, 16), (15, 18), (17, 21), (19, 20), (22, 24), (23, 25), (26, 29), (27, 28), (30, 31),
  (32, 34), (35, 36), (40, 41), (5, 6), (9, 10), (11, 13), (14, 15), (16, 18), (17, 19),
  (20, 21), (22, 23), (24, 25), (26, 27), (28, 29), (30, 32), (31, 33), (34, 35), (36, 38),
  (41, 42), (7, 9), (10, 12), (11, 14), (13, 15), (16, 17), (18, 19), (20, 22), (21, 23),
  (24, 26), (25, 27), (28, 30), (29, 32), (31, 34), (33, 35), (36, 37), (38, 39), (7, 8),
  (9, 10), (11, 12), (13, 14), (15, 16), (17, 18), (19, 20), (21, 22), (23, 24), (25, 26),
  (27, 28), (29, 30), (31, 32), (33, 34), (35, 36), (37, 38), (39, 40)]

/-- detail/sorting_network/sort46.h 366-386. -/
def netPairs46 : List (Nat × Nat) := [
  (2, 13), (3, 12), (4, 8), (5, 6), (7, 11), (9, 10), (14, 35), (15, 18), (16, 29), (17, 28),
  (19, 30), (20, 24), (21, 22), (23, 27), (25, 26), (31, 34), (32, 45), (33, 44), (36, 40),
  (37, 38), (39, 43), (41, 42), (0, 5), (1, 7), (2, 9), (3, 4), (8, 12), (10, 13), (14, 36),
  (15, 25), (16, 21), (17, 23), (18, 26), (19, 20), (22, 29), (24, 30), (27, 28), (31, 41),
  (32, 37), (33, 39), (34, 42), (35, 40), (38, 45), (43, 44), (0, 1), (2, 3), (4, 5), (6, 8),
  (7, 9), (10, 11), (12, 13), (14, 31), (15, 19), (16, 17), (18, 27), (20, 21), (22, 24),
  (23, 25), (26, 30), (28, 29), (32, 33), (34, 43), (35, 38), (36, 37), (39, 41), (40, 42),
  (44, 45), (0, 2), (1, 3), (4, 10), (5, 11), (6, 7), (8, 9), (14, 32), (15, 16), (17, 19),
  (18, 20), (21, 27), (22, 23), (24, 25), (26, 28), (29, 30), (31, 33), (34, 36), (35, 39),
  (37, 43), (38, 41), (40, 44), (42, 45), (1, 2), (3, 12), (4, 6), (5, 7), (8, 10), (9, 11),
  (14, 15), (16, 17), (18, 22), (19, 26), (20, 24), (21, 23), (25, 27), (28, 29), (30, 45),
  (31, 32), (33, 40), (34, 35), (36, 38), (37, 39), (41, 43), (42, 44), (0, 14), (1, 4),
  (2, 6), (3, 19), (5, 8), (7, 10), (9, 13), (16, 18), (17, 22), (20, 21), (23, 24), (25, 28),
  (26, 40), (27, 29), (31, 34), (32, 35), (36, 37), (38, 39), (41, 42), (43, 44), (1, 31),
  (2, 32), (3, 33), (5, 36), (8, 21), (9, 25), (10, 39), (11, 27), (12, 40), (13, 42),
  (14, 15), (18, 34), (22, 35), (23, 38), (29, 44), (1, 16), (4, 18), (5, 20), (6, 22),
  (7, 38), (8, 37), (12, 26), (13, 28), (17, 32), (19, 33), (24, 39), (25, 41), (27, 43),
  (2, 17), (4, 14), (5, 15), (7, 23), (8, 19), (9, 25), (10, 24), (11, 27), (16, 31), (18, 34),
  (20, 36), (21, 37), (22, 35), (26, 38), (28, 42), (30, 39), (41, 44), (43, 45), (1, 4),
  (2, 5), (3, 14), (6, 16), (7, 32), (9, 31), (12, 15), (13, 37), (19, 21), (23, 26), (29, 35),
  (30, 33), (39, 42), (40, 43), (2, 4), (3, 6), (7, 18), (9, 16), (11, 32), (12, 17), (13, 34),
  (14, 20), (15, 22), (21, 29), (23, 31), (24, 40), (25, 30), (27, 37), (28, 33), (35, 41),
  (42, 45), (43, 44), (3, 4), (5, 6), (7, 14), (9, 12), (10, 22), (11, 20), (13, 15), (21, 23),
  (24, 34), (25, 36), (29, 31), (30, 32), (33, 41), (37, 40), (39, 43), (42, 44), (4, 5),
  (6, 7), (8, 13), (10, 25), (11, 21), (14, 16), (15, 19), (20, 23), (22, 36), (24, 29),
  (26, 30), (31, 34), (32, 38), (35, 37), (39, 40), (42, 43), (7, 12), (8, 14), (10, 17),
  (13, 15), (16, 18), (19, 25), (20, 24), (22, 26), (23, 29), (27, 35), (28, 36), (30, 32),
  (33, 39), (37, 38), (8, 9), (10, 13), (11, 16), (12, 14), (15, 17), (18, 21), (19, 22),
  (25, 26), (27, 31), (28, 30), (32, 36), (33, 37), (34, 35), (38, 41), (6, 8), (10, 11),
  (13, 16), (15, 18), (17, 21), (19, 20), (22, 24), (23, 25), (26, 29), (27, 28), (30, 31),
  (32, 34), (35, 36), (40, 41), (5, 6), (9, 10), (11, 13), (14, 15), (16, 18), (17, 19),
  (20, 21), (22, 23), (24, 25), (26, 27), (28, 29), (30, 32), (31, 33), (34, 35), (36, 38),
  (41, 42), (7, 9), (10, 12), (11, 14), (13, 15), (16, 17), (18, 19), (20, 22), (21, 23),
  (24, 26), (25, 27), (28, 30), (29, 32), (31, 34), (33, 35), (36, 37), (38, 39), (7, 8),
  (9, 10), (11, 12), (13, 14), (15, 16), (17, 18), (19, 20), (21, 22), (23, 24), (25, 26),
  (27, 28), (29, 30), (31, 32), (33, 34), (35, 36), (37, 38), (39, 40)]

/-- detail/sorting_network/sort47.h 27-366. -/
def net47 : List (Nat × Nat) := [
  (1, 12), (2, 13), (3, 14), (4, 8), (5, 6), (7, 11), (9, 10), (15, 18), (16, 29), (17, 28),
  (19, 30), (20, 24), (21, 22), (23, 27), (25, 26), (31, 34), (32, 45), (33, 44), (35, 46),
  (36, 40), (37, 38), (39, 43), (41, 42), (0, 5), (1, 7), (2, 9), (3, 4), (8, 14), (10, 13),
  (11, 12), (15, 25), (16, 21), (17, 23), (18, 26), (19, 20), (22, 29), (24, 30), (27, 28),
  (31, 41), (32, 37), (33, 39), (34, 42), (35, 36), (38, 45), (40, 46), (43, 44), (0, 1),
  (2, 3), (4, 5), (6, 8), (7, 9), (10, 11), (13, 14), (15, 19), (16, 17), (18, 27), (20, 21),
  (22, 24), (23, 25), (26, 30), (28, 29), (31, 35), (32, 33), (34, 43), (36, 37), (38, 40),
  (39, 41), (42, 46), (44, 45), (0, 2), (1, 3), (4, 10), (5, 11), (6, 7), (8, 9), (12, 13),
  (15, 16), (17, 19), (18, 20), (21, 27), (22, 23), (24, 25), (26, 28), (29, 30), (31, 32),
  (33, 35), (34, 36), (37, 43), (38, 39), (40, 41), (42, 44), (45, 46), (1, 2), (3, 12),
  (4, 6), (5, 7), (8, 10), (9, 11), (13, 14), (15, 31), (16, 17), (18, 22), (19, 26), (20, 24),
  (21, 23), (25, 27), (28, 29), (30, 46), (32, 33), (34, 38), (35, 42), (36, 40), (37, 39),
  (41, 43), (44, 45), (0, 15), (1, 4), (2, 6), (3, 19), (5, 8), (7, 10), (9, 13), (11, 14),
  (16, 18), (17, 22), (20, 21), (23, 24), (25, 28), (26, 42), (27, 29), (32, 34), (33, 38),
  (36, 37), (39, 40), (41, 44), (43, 45), (1, 32), (2, 33), (3, 35), (5, 36), (8, 21), (9, 25),
  (10, 40), (11, 27), (12, 42), (13, 44), (14, 45), (15, 31), (18, 34), (22, 38), (23, 39),
  (1, 16), (4, 18), (5, 20), (6, 22), (7, 39), (8, 37), (12, 26), (13, 28), (17, 33), (19, 35),
  (24, 40), (25, 41), (27, 43), (29, 45), (2, 17), (4, 15), (5, 31), (7, 23), (8, 19), (9, 25),
  (10, 24), (11, 27), (14, 29), (16, 32), (18, 34), (20, 36), (21, 37), (22, 38), (26, 39),
  (28, 44), (30, 40), (43, 46), (1, 4), (2, 5), (3, 15), (6, 16), (7, 33), (9, 32), (12, 31),
  (13, 37), (14, 38), (19, 21), (23, 26), (29, 41), (30, 35), (40, 44), (42, 43), (45, 46),
  (2, 4), (3, 6), (7, 18), (9, 16), (11, 33), (12, 17), (13, 34), (14, 21), (15, 20), (22, 31),
  (23, 32), (24, 42), (25, 30), (27, 37), (28, 35), (29, 38), (41, 43), (44, 45), (3, 4),
  (5, 6), (7, 15), (9, 12), (10, 31), (11, 20), (13, 22), (14, 23), (21, 32), (24, 34),
  (25, 36), (30, 33), (35, 38), (37, 42), (40, 41), (43, 44), (4, 5), (6, 7), (8, 13),
  (10, 25), (11, 14), (15, 16), (19, 22), (20, 23), (21, 24), (26, 30), (29, 37), (31, 36),
  (32, 34), (33, 39), (40, 42), (41, 43), (7, 12), (8, 15), (10, 17), (13, 19), (16, 18),
  (20, 21), (22, 25), (23, 24), (26, 31), (27, 29), (28, 36), (30, 33), (35, 40), (37, 39),
  (8, 9), (10, 13), (11, 16), (12, 15), (14, 18), (17, 19), (22, 26), (25, 31), (27, 32),
  (28, 30), (29, 34), (33, 36), (35, 37), (38, 39), (6, 8), (10, 11), (13, 16), (14, 17),
  (18, 19), (20, 22), (21, 26), (23, 25), (24, 31), (27, 28), (29, 33), (30, 32), (34, 36),
  (39, 42), (5, 6), (9, 10), (11, 13), (14, 15), (16, 17), (18, 20), (19, 22), (21, 23),
  (24, 27), (25, 26), (28, 31), (29, 30), (32, 35), (33, 34), (36, 38), (41, 42), (7, 9),
  (10, 12), (11, 14), (13, 15), (16, 18), (17, 20), (19, 21), (22, 23), (24, 25), (26, 27),
  (28, 29), (30, 31), (32, 33), (34, 35), (36, 37), (38, 40), (7, 8), (9, 10), (11, 12),
  (13, 14), (15, 16), (17, 18), (19, 20), (21, 22), (23, 24), (25, 26), (27, 28), (29, 30),
  (31, 32), (33, 34), (35, 36), (37, 38), (39, 40)]

/-- detail/sorting_network/sort47.h 374-394. -/
def netPairs47 : List (Nat × Nat) := [
  (1, 12), (2, 13), (3, 14), (4, 8), (5, 6), (7, 11), (9, 10), (15, 18), (16, 29), (17, 28),
  (19, 30), (20, 24), (21, 22), (23, 27), (25, 26), (31, 34), (32, 45), (33, 44), (35, 46),
  (36, 40), (37, 38), (39, 43), (41, 42), (0, 5), (1, 7), (2, 9), (3, 4), (8, 14), (10, 13),
  (11, 12), (15, 25), (16, 21), (17, 23), (18, 26), (19, 20), (22, 29), (24, 30), (27, 28),
  (31, 41), (32, 37), (33, 39), (34, 42), (35, 36), (38, 45), (40, 46), (43, 44), (0, 1),
  (2, 3), (4, 5), (6, 8), (7, 9), (10, 11), (13, 14), (15, 19), (16, 17), (18, 27), (20, 21),
  (22, 24), (23, 25), (26, 30), (28, 29), (31, 35), (32, 33), (34, 43), (36, 37), (38, 40),
  (39, 41), (42, 46), (44, 45), (0, 2), (1, 3), (4, 10), (5, 11), (6, 7), (8, 9), (12, 13),
  (15, 16), (17, 19), (18, 20), (21, 27), (22, 23), (24, 25), (26, 28), (29, 30), (31, 32),
  (33, 35), (34, 36), (37, 43), (38, 39), (40, 41), (42, 44), (45, 46), (1, 2), (3, 12),
  (4, 6), (5, 7), (8, 10), (9, 11), (13, 14), (15, 31), (16, 17), (18, 22), (19, 26), (20, 24),
  (21, 23), (25, 27), (28, 29), (30, 46), (32, 33), (34, 38), (35, 42), (36, 40), (37, 39),
  (41, 43), (44, 45), (0, 15), (1, 4), (2, 6), (3, 19), (5, 8), (7, 10), (9, 13), (11, 14),
  (16, 18), (17, 22), (20, 21), (23, 24), (25, 28), (26, 42), (27, 29), (32, 34), (33, 38),
  (36, 37), (39, 40), (41, 44), (43, 45), (1, 32), (2, 33), (3, 35), (5, 36), (8, 21), (9, 25),
  (10, 40), (11, 27), (12, 42), (13, 44), (14, 45), (15, 31), (18, 34), (22, 38), (23, 39),
  (1, 16), (4, 18), (5, 20), (6, 22), (7, 39), (8, 37), (12, 26), (13, 28), (17, 33), (19, 35),
  (24, 40), (25, 41), (27, 43), (29, 45), (2, 17), (4, 15), (5, 31), (7, 23), (8, 19), (9, 25),
  (10, 24), (11, 27), (14, 29), (16, 32), (18, 34), (20, 36), (21, 37), (22, 38), (26, 39),
  (28, 44), (30, 40), (43, 46), (1, 4), (2, 5), (3, 15), (6, 16), (7, 33), (9, 32), (12, 31),
  (13, 37), (14, 38), (19, 21), (23, 26), (29, 41), (30, 35), (40, 44), (42, 43), (45, 46),
  (2, 4), (3, 6), (7, 18), (9, 16), (11, 33), (12, 17), (13, 34), (14, 21), (15, 20), (22, 31),
  (23, 32), (24, 42), (25, 30), (27, 37), (28, 35), (29, 38), (41, 43), (44, 45), (3, 4),
  (5, 6), (7, 15), (9, 12), (10, 31), (11, 20), (13, 22), (14, 23), (21, 32), (24, 34),
  (25, 36), (30, 33), (35, 38), (37, 42), (40, 41), (43, 44), (4, 5), (6, 7), (8, 13),
  (10, 25), (11, 14), (15, 16), (19, 22), (20, 23), (21, 24), (26, 30), (29, 37), (31, 36),
  (32, 34), (33, 39), (40, 42), (41, 43), (7, 12), (8, 15), (10, 17), (13, 19), (16, 18),
  (20, 21), (22, 25), (23, 24), (26, 31), (27, 29), (28, 36), (30, 33), (35, 40), (37, 39),
  (8, 9), (10, 13), (11, 16), (12, 15), (14, 18), (17, 19), (22, 26), (25, 31), (27, 32),
  (28, 30), (29, 34), (33, 36), (35, 37), (38, 39), (6, 8), (10, 11), (13, 16), (14, 17),
  (18, 19), (20, 22), (21, 26), (23, 25), (24, 31), (27, 28), (29, 33), (30, 32), (34, 36),
  (39, 42), (5, 6), (9, 10), (11, 13), (14, 15), (16, 17), (18, 20), (19, 22), (21, 23),
  (24, 27), (25, 26), (28, 31), (29, 30), (32, 35), (33, 34), (36, 38), (41, 42), (7, 9),
  (10, 12), (11, 14), (13, 15), (16, 18), (17, 20), (19, 21), (22, 23), (24, 25), (26, 27),
  (28, 29), (30, 31), (32, 33), (34, 35), (36, 37), (38, 40), (7, 8), (9, 10), (11, 12),
  (13, 14), (15, 16), (17, 18), (19, 20), (21, 22), (23, 24), (25, 26), (27, 28), (29, 30),
  (31, 32), (33, 34), (35, 36), (37, 38), (39, 40)]

/-- detail/sorting_network/sort48.h 27-372. -/
def net48 : List (Nat × Nat) := [
  (0, 13), (1, 12), (2, 15), (3, 14), (4, 8), (5, 6), (7, 11), (9, 10), (16, 29), (17, 28),
  (18, 31), (19, 30), (20, 24), (21, 22), (23, 27), (25, 26), (32, 45), (33, 44), (34, 47),
  (35, 46), (36, 40), (37, 38), (39, 43), (41, 42), (0, 5), (1, 7), (2, 9), (3, 4), (6, 13),
  (8, 14), (10, 15), (11, 12), (16, 21), (17, 23), (18, 25), (19, 20), (22, 29), (24, 30),
  (26, 31), (27, 28), (32, 37), (33, 39), (34, 41), (35, 36), (38, 45), (40, 46), (42, 47),
  (43, 44), (0, 1), (2, 3), (4, 5), (6, 8), (7, 9), (10, 11), (12, 13), (14, 15), (16, 17),
  (18, 19), (20, 21), (22, 24), (23, 25), (26, 27), (28, 29), (30, 31), (32, 33), (34, 35),
  (36, 37), (38, 40), (39, 41), (42, 43), (44, 45), (46, 47), (0, 2), (1, 3), (4, 10), (5, 11),
  (6, 7), (8, 9), (12, 14), (13, 15), (16, 18), (17, 19), (20, 26), (21, 27), (22, 23),
  (24, 25), (28, 30), (29, 31), (32, 34), (33, 35), (36, 42), (37, 43), (38, 39), (40, 41),
  (44, 46), (45, 47), (1, 2), (3, 12), (4, 6), (5, 7), (8, 10), (9, 11), (13, 14), (15, 31),
  (16, 32), (17, 18), (19, 28), (20, 22), (21, 23), (24, 26), (25, 27), (29, 30), (33, 34),
  (35, 44), (36, 38), (37, 39), (40, 42), (41, 43), (45, 46), (0, 16), (1, 4), (2, 6), (3, 19),
  (5, 8), (7, 10), (9, 13), (11, 14), (17, 20), (18, 22), (21, 24), (23, 26), (25, 29),
  (27, 30), (28, 44), (31, 47), (33, 36), (34, 38), (37, 40), (39, 42), (41, 45), (43, 46),
  (1, 33), (2, 34), (3, 35), (5, 37), (8, 24), (9, 25), (10, 42), (11, 27), (12, 44), (13, 45),
  (14, 46), (15, 31), (16, 32), (20, 36), (22, 38), (23, 39), (1, 17), (4, 20), (5, 21),
  (6, 22), (7, 39), (8, 40), (12, 28), (13, 29), (18, 34), (19, 35), (25, 41), (26, 42),
  (27, 43), (30, 46), (2, 18), (4, 16), (5, 32), (7, 23), (8, 19), (9, 25), (10, 26), (11, 27),
  (14, 30), (15, 42), (17, 33), (20, 36), (21, 37), (22, 38), (24, 40), (28, 39), (29, 45),
  (31, 43), (1, 4), (2, 5), (3, 16), (6, 17), (7, 34), (9, 33), (12, 32), (13, 40), (14, 38),
  (15, 35), (19, 24), (23, 28), (30, 41), (31, 44), (42, 45), (43, 46), (2, 4), (3, 6),
  (7, 20), (9, 17), (11, 34), (12, 18), (13, 36), (14, 24), (15, 25), (16, 21), (22, 32),
  (23, 33), (26, 31), (27, 40), (29, 35), (30, 38), (41, 44), (43, 45), (3, 4), (5, 6),
  (7, 16), (9, 12), (10, 32), (11, 21), (13, 22), (14, 23), (15, 37), (24, 33), (25, 34),
  (26, 36), (31, 40), (35, 38), (41, 42), (43, 44), (4, 5), (6, 7), (8, 13), (10, 15),
  (11, 14), (16, 17), (19, 22), (21, 23), (24, 26), (25, 28), (30, 31), (32, 37), (33, 36),
  (34, 39), (40, 41), (42, 43), (7, 12), (8, 16), (10, 18), (13, 19), (15, 22), (17, 20),
  (21, 24), (23, 26), (25, 32), (27, 30), (28, 34), (29, 37), (31, 39), (35, 40), (8, 9),
  (10, 13), (11, 17), (12, 16), (14, 20), (15, 25), (18, 19), (22, 32), (27, 33), (28, 29),
  (30, 36), (31, 35), (34, 37), (38, 39), (6, 8), (10, 11), (13, 17), (14, 18), (15, 21),
  (19, 20), (22, 23), (24, 25), (26, 32), (27, 28), (29, 33), (30, 34), (36, 37), (39, 41),
  (5, 6), (9, 10), (11, 13), (14, 16), (15, 19), (17, 18), (20, 21), (22, 24), (23, 25),
  (26, 27), (28, 32), (29, 30), (31, 33), (34, 36), (37, 38), (41, 42), (7, 9), (10, 12),
  (11, 14), (13, 16), (15, 17), (18, 19), (20, 22), (21, 24), (23, 26), (25, 27), (28, 29),
  (30, 32), (31, 34), (33, 36), (35, 37), (38, 40), (7, 8), (9, 10), (11, 12), (13, 14),
  (15, 16), (17, 18), (19, 20), (21, 22), (23, 24), (25, 26), (27, 28), (29, 30), (31, 32),
  (33, 34), (35, 36), (37, 38), (39, 40)]

/-- detail/sorting_network/sort48.h 380-400. -/
def netPairs48 : List (Nat × Nat) := [
  (0, 13), (1, 12), (2, 15), (3, 14), (4, 8), (5, 6), (7, 11), (9, 10), (16, 29), (17, 28),
  (18, 31), (19, 30), (20, 24), (21, 22), (23, 27), (25, 26), (32, 45), (33, 44), (34, 47),
  (35, 46), (36, 40), (37, 38), (39, 43), (41, 42), (0, 5), (1, 7), (2, 9), (3, 4), (6, 13),
  (8, 14), (10, 15), (11, 12), (16, 21), (17, 23), (18, 25), (19, 20), (22, 29), (24, 30),
  (26, 31), (27, 28), (32, 37), (33, 39), (34, 41), (35, 36), (38, 45), (40, 46), (42, 47),
  (43, 44), (0, 1), (2, 3), (4, 5), (6, 8), (7, 9), (10, 11), (12, 13), (14, 15), (16, 17),
  (18, 19), (20, 21), (22, 24), (23, 25), (26, 27), (28, 29), (30, 31), (32, 33), (34, 35),
  (36, 37), (38, 40), (39, 41), (42, 43), (44, 45), (46, 47), (0, 2), (1, 3), (4, 10), (5, 11),
  (6, 7), (8, 9), (12, 14), (13, 15), (16, 18), (17, 19), (20, 26), (21, 27), (22, 23),
  (24, 25), (28, 30), (29, 31), (32, 34), (33, 35), (36, 42), (37, 43), (38, 39), (40, 41),
  (44, 46), (45, 47), (1, 2), (3, 12), (4, 6), (5, 7), (8, 10), (9, 11), (13, 14), (15, 31),
  (16, 32), (17, 18), (19, 28), (20, 22), (21, 23), (24, 26), (25, 27), (29, 30), (33, 34),
  (35, 44), (36, 38), (37, 39), (40, 42), (41, 43), (45, 46), (0, 16), (1, 4), (2, 6), (3, 19),
  (5, 8), (7, 10), (9, 13), (11, 14), (17, 20), (18, 22), (21, 24), (23, 26), (25, 29),
  (27, 30), (28, 44), (31, 47), (33, 36), (34, 38), (37, 40), (39, 42), (41, 45), (43, 46),
  (1, 33), (2, 34), (3, 35), (5, 37), (8, 24), (9, 25), (10, 42), (11, 27), (12, 44), (13, 45),
  (14, 46), (15, 31), (16, 32), (20, 36), (22, 38), (23, 39), (1, 17), (4, 20), (5, 21),
  (6, 22), (7, 39), (8, 40), (12, 28), (13, 29), (18, 34), (19, 35), (25, 41), (26, 42),
  (27, 43), (30, 46), (2, 18), (4, 16), (5, 32), (7, 23), (8, 19), (9, 25), (10, 26), (11, 27),
  (14, 30), (15, 42), (17, 33), (20, 36), (21, 37), (22, 38), (24, 40), (28, 39), (29, 45),
  (31, 43), (1, 4), (2, 5), (3, 16), (6, 17), (7, 34), (9, 33), (12, 32), (13, 40), (14, 38),
  (15, 35), (19, 24), (23, 28), (30, 41), (31, 44), (42, 45), (43, 46), (2, 4), (3, 6),
  (7, 20), (9, 17), (11, 34), (12, 18), (13, 36), (14, 24), (15, 25), (16, 21), (22, 32),
  (23, 33), (26, 31), (27, 40), (29, 35), (30, 38), (41, 44), (43, 45), (3, 4), (5, 6),
  (7, 16), (9, 12), (10, 32), (11, 21), (13, 22), (14, 23), (15, 37), (24, 33), (25, 34),
  (26, 36), (31, 40), (35, 38), (41, 42), (43, 44), (4, 5), (6, 7), (8, 13), (10, 15),
  (11, 14), (16, 17), (19, 22), (21, 23), (24, 26), (25, 28), (30, 31), (32, 37), (33, 36),
  (34, 39), (40, 41), (42, 43), (7, 12), (8, 16), (10, 18), (13, 19), (15, 22), (17, 20),
  (21, 24), (23, 26), (25, 32), (27, 30), (28, 34), (29, 37), (31, 39), (35, 40), (8, 9),
  (10, 13), (11, 17), (12, 16), (14, 20), (15, 25), (18, 19), (22, 32), (27, 33), (28, 29),
  (30, 36), (31, 35), (34, 37), (38, 39), (6, 8), (10, 11), (13, 17), (14, 18), (15, 21),
  (19, 20), (22, 23), (24, 25), (26, 32), (27, 28), (29, 33), (30, 34), (36, 37), (39, 41),
  (5, 6), (9, 10), (11, 13), (14, 16), (15, 19), (17, 18), (20, 21), (22, 24), (23, 25),
  (26, 27), (28, 32), (29, 30), (31, 33), (34, 36), (37, 38), (41, 42), (7, 9), (10, 12),
  (11, 14), (13, 16), (15, 17), (18, 19), (20, 22), (21, 24), (23, 26), (25, 27), (28, 29),
  (30, 32), (31, 34), (33, 36), (35, 37), (38, 40), (7, 8), (9, 10), (11, 12), (13, 14),
  (15, 16), (17, 18), (19, 20), (21, 22), (23, 24), (25, 26), (27, 28), (29, 30), (31, 32),
  (33, 34), (35, 36), (37, 38), (39, 40)]

end CppSort
