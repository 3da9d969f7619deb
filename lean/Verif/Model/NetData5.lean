set_option autoImplicit false
/-
Sorting networks for 49 to 56 elements, transcribed from detail/sorting_network/sortN.h.
`netN` is the sequence of compare-exchanges of `operator()`, `netPairsN` the table of `index_pairs()`.
-/
namespace CppSort

/-- detail/sorting_network/sort49.h 27-391. -/
def net49 : List (Nat × Nat) := [
  (0, 8), (1, 7), (2, 6), (3, 11), (4, 10), (5, 9), (12, 20), (13, 19), (14, 18), (15, 23),
  (16, 22), (17, 21), (24, 32), (25, 31), (26, 30), (27, 35), (28, 34), (29, 33), (36, 48),
  (37, 46), (38, 45), (39, 43), (41, 47), (42, 44), (0, 1), (2, 5), (3, 4), (6, 9), (7, 8),
  (10, 11), (12, 13), (14, 17), (15, 16), (18, 21), (19, 20), (22, 23), (24, 25), (26, 29),
  (27, 28), (30, 33), (31, 32), (34, 35), (37, 42), (38, 39), (40, 47), (43, 45), (44, 46),
  (0, 2), (1, 6), (5, 10), (9, 11), (12, 14), (13, 18), (17, 22), (21, 23), (24, 26), (25, 30),
  (29, 34), (33, 35), (36, 40), (37, 38), (39, 42), (43, 44), (45, 46), (47, 48), (0, 3),
  (1, 2), (4, 6), (5, 7), (8, 11), (9, 10), (12, 15), (13, 14), (16, 18), (17, 19), (20, 23),
  (21, 22), (24, 27), (25, 26), (28, 30), (29, 31), (32, 35), (33, 34), (40, 42), (41, 45),
  (44, 47), (46, 48), (0, 24), (1, 4), (3, 5), (6, 8), (7, 10), (11, 23), (13, 16), (15, 17),
  (18, 20), (19, 22), (25, 28), (27, 29), (30, 32), (31, 34), (36, 41), (39, 44), (40, 43),
  (42, 47), (45, 46), (1, 3), (2, 5), (6, 9), (8, 10), (13, 15), (14, 17), (18, 21), (20, 22),
  (25, 27), (26, 29), (30, 33), (32, 34), (36, 37), (38, 41), (42, 45), (43, 44), (46, 47),
  (1, 13), (2, 3), (4, 5), (6, 7), (8, 9), (10, 22), (12, 36), (14, 15), (16, 17), (18, 19),
  (20, 21), (26, 27), (28, 29), (30, 31), (32, 33), (35, 47), (37, 39), (38, 40), (41, 42),
  (45, 46), (0, 12), (2, 14), (4, 6), (5, 7), (9, 21), (11, 35), (16, 18), (17, 19), (23, 47),
  (24, 36), (28, 30), (29, 31), (34, 46), (37, 38), (39, 40), (41, 43), (42, 44), (3, 4),
  (5, 6), (7, 8), (10, 34), (12, 24), (15, 16), (17, 18), (19, 20), (22, 46), (23, 35),
  (25, 37), (27, 28), (29, 30), (31, 32), (38, 39), (40, 41), (42, 43), (44, 45), (1, 25),
  (3, 15), (4, 28), (5, 29), (6, 30), (7, 31), (8, 32), (13, 37), (19, 43), (20, 48), (22, 34),
  (26, 38), (33, 45), (39, 40), (41, 42), (2, 26), (4, 40), (7, 19), (8, 20), (9, 33),
  (13, 25), (14, 38), (16, 28), (17, 41), (18, 42), (21, 45), (27, 39), (31, 43), (32, 48),
  (3, 27), (5, 17), (6, 18), (9, 37), (10, 38), (14, 26), (15, 39), (19, 31), (20, 32),
  (21, 33), (28, 44), (29, 41), (30, 42), (35, 43), (36, 40), (5, 13), (6, 14), (8, 28),
  (9, 25), (10, 26), (11, 39), (15, 27), (16, 36), (17, 29), (18, 30), (20, 40), (21, 37),
  (22, 38), (32, 44), (33, 41), (34, 42), (43, 46), (4, 16), (7, 15), (8, 24), (9, 13),
  (10, 14), (11, 27), (17, 25), (18, 26), (21, 29), (22, 30), (23, 39), (28, 36), (32, 40),
  (33, 37), (34, 38), (42, 48), (3, 9), (4, 12), (11, 15), (13, 17), (14, 18), (19, 27),
  (21, 25), (22, 26), (23, 31), (24, 28), (29, 33), (30, 34), (32, 36), (35, 39), (38, 44),
  (43, 48), (1, 4), (3, 5), (7, 13), (8, 12), (11, 17), (15, 19), (16, 24), (20, 28), (23, 27),
  (30, 36), (31, 35), (34, 40), (39, 45), (2, 8), (7, 9), (12, 16), (15, 21), (19, 25),
  (20, 24), (23, 29), (27, 33), (28, 32), (31, 37), (34, 36), (35, 41), (39, 42), (45, 48),
  (2, 4), (6, 12), (10, 16), (14, 20), (18, 24), (19, 21), (22, 28), (23, 25), (26, 32),
  (29, 30), (31, 33), (35, 38), (37, 40), (39, 44), (43, 45), (46, 48), (6, 8), (10, 12),
  (11, 14), (13, 16), (15, 20), (17, 18), (22, 24), (26, 28), (27, 32), (31, 34), (33, 36),
  (35, 37), (38, 40), (41, 44), (47, 48), (3, 6), (5, 8), (7, 10), (9, 12), (11, 13), (14, 16),
  (15, 17), (18, 20), (19, 22), (21, 24), (23, 26), (25, 28), (27, 29), (30, 32), (33, 34),
  (35, 36), (37, 38), (39, 41), (42, 44), (3, 4), (5, 6), (7, 8), (9, 10), (11, 12), (13, 14),
  (15, 16), (17, 18), (19, 20), (21, 22), (23, 24), (25, 26), (27, 28), (29, 30), (31, 32),
  (39, 40), (43, 44)]

/-- detail/sorting_network/sort49.h 399-421. -/
def netPairs49 : List (Nat × Nat) := [
  (0, 8), (1, 7), (2, 6), (3, 11), (4, 10), (5, 9), (12, 20), (13, 19), (14, 18), (15, 23),
  (16, 22), (17, 21), (24, 32), (25, 31), (26, 30), (27, 35), (28, 34), (29, 33), (36, 48),
  (37, 46), (38, 45), (39, 43), (41, 47), (42, 44), (0, 1), (2, 5), (3, 4), (6, 9), (7, 8),
  (10, 11), (12, 13), (14, 17), (15, 16), (18, 21), (19, 20), (22, 23), (24, 25), (26, 29),
  (27, 28), (30, 33), (31, 32), (34, 35), (37, 42), (38, 39), (40, 47), (43, 45), (44, 46),
  (0, 2), (1, 6), (5, 10), (9, 11), (12, 14), (13, 18), (17, 22), (21, 23), (24, 26), (25, 30),
  (29, 34), (33, 35), (36, 40), (37, 38), (39, 42), (43, 44), (45, 46), (47, 48), (0, 3),
  (1, 2), (4, 6), (5, 7), (8, 11), (9, 10), (12, 15), (13, 14), (16, 18), (17, 19), (20, 23),
  (21, 22), (24, 27), (25, 26), (28, 30), (29, 31), (32, 35), (33, 34), (40, 42), (41, 45),
  (44, 47), (46, 48), (0, 24), (1, 4), (3, 5), (6, 8), (7, 10), (11, 23), (13, 16), (15, 17),
  (18, 20), (19, 22), (25, 28), (27, 29), (30, 32), (31, 34), (36, 41), (39, 44), (40, 43),
  (42, 47), (45, 46), (1, 3), (2, 5), (6, 9), (8, 10), (13, 15), (14, 17), (18, 21), (20, 22),
  (25, 27), (26, 29), (30, 33), (32, 34), (36, 37), (38, 41), (42, 45), (43, 44), (46, 47),
  (1, 13), (2, 3), (4, 5), (6, 7), (8, 9), (10, 22), (12, 36), (14, 15), (16, 17), (18, 19),
  (20, 21), (26, 27), (28, 29), (30, 31), (32, 33), (35, 47), (37, 39), (38, 40), (41, 42),
  (45, 46), (0, 12), (2, 14), (4, 6), (5, 7), (9, 21), (11, 35), (16, 18), (17, 19), (23, 47),
  (24, 36), (28, 30), (29, 31), (34, 46), (37, 38), (39, 40), (41, 43), (42, 44), (3, 4),
  (5, 6), (7, 8), (10, 34), (12, 24), (15, 16), (17, 18), (19, 20), (22, 46), (23, 35),
  (25, 37), (27, 28), (29, 30), (31, 32), (38, 39), (40, 41), (42, 43), (44, 45), (1, 25),
  (3, 15), (4, 28), (5, 29), (6, 30), (7, 31), (8, 32), (13, 37), (19, 43), (20, 48), (22, 34),
  (26, 38), (33, 45), (39, 40), (41, 42), (2, 26), (4, 40), (7, 19), (8, 20), (9, 33),
  (13, 25), (14, 38), (16, 28), (17, 41), (18, 42), (21, 45), (27, 39), (31, 43), (32, 48),
  (3, 27), (5, 17), (6, 18), (9, 37), (10, 38), (14, 26), (15, 39), (19, 31), (20, 32),
  (21, 33), (28, 44), (29, 41), (30, 42), (35, 43), (36, 40), (5, 13), (6, 14), (8, 28),
  (9, 25), (10, 26), (11, 39), (15, 27), (16, 36), (17, 29), (18, 30), (20, 40), (21, 37),
  (22, 38), (32, 44), (33, 41), (34, 42), (43, 46), (4, 16), (7, 15), (8, 24), (9, 13),
  (10, 14), (11, 27), (17, 25), (18, 26), (21, 29), (22, 30), (23, 39), (28, 36), (32, 40),
  (33, 37), (34, 38), (42, 48), (3, 9), (4, 12), (11, 15), (13, 17), (14, 18), (19, 27),
  (21, 25), (22, 26), (23, 31), (24, 28), (29, 33), (30, 34), (32, 36), (35, 39), (38, 44),
  (43, 48), (1, 4), (3, 5), (7, 13), (8, 12), (11, 17), (15, 19), (16, 24), (20, 28), (23, 27),
  (30, 36), (31, 35), (34, 40), (39, 45), (2, 8), (7, 9), (12, 16), (15, 21), (19, 25),
  (20, 24), (23, 29), (27, 33), (28, 32), (31, 37), (34, 36), (35, 41), (39, 42), (45, 48),
  (2, 4), (6, 12), (10, 16), (14, 20), (18, 24), (19, 21), (22, 28), (23, 25), (26, 32),
  (29, 30), (31, 33), (35, 38), (37, 40), (39, 44), (43, 45), (46, 48), (6, 8), (10, 12),
  (11, 14), (13, 16), (15, 20), (17, 18), (22, 24), (26, 28), (27, 32), (31, 34), (33, 36),
  (35, 37), (38, 40), (41, 44), (47, 48), (3, 6), (5, 8), (7, 10), (9, 12), (11, 13), (14, 16),
  (15, 17), (18, 20), (19, 22), (21, 24), (23, 26), (25, 28), (27, 29), (30, 32), (33, 34),
  (35, 36), (37, 38), (39, 41), (42, 44), (3, 4), (5, 6), (7, 8), (9, 10), (11, 12), (13, 14),
  (15, 16), (17, 18), (19, 20), (21, 22), (23, 24), (25, 26), (27, 28), (29, 30), (31, 32),
  (39, 40), (43, 44)]

/-- detail/sorting_network/sort50.h 27-402. -/
def net50 : List (Nat × Nat) := [
  (0, 8), (1, 7), (2, 6), (3, 11), (4, 10), (5, 9), (12, 24), (13, 22), (14, 21), (15, 19),
  (17, 23), (18, 20), (25, 33), (26, 32), (27, 31), (28, 36), (29, 35), (30, 34), (37, 49),
  (38, 47), (39, 46), (40, 44), (42, 48), (43, 45), (0, 1), (2, 5), (3, 4), (6, 9), (7, 8),
  (10, 11), (13, 18), (14, 15), (16, 23), (19, 21), (20, 22), (25, 26), (27, 30), (28, 29),
  (31, 34), (32, 33), (35, 36), (38, 43), (39, 40), (41, 48), (44, 46), (45, 47), (0, 2),
  (1, 6), (5, 10), (9, 11), (12, 16), (13, 14), (15, 18), (19, 20), (21, 22), (23, 24),
  (25, 27), (26, 31), (30, 35), (34, 36), (37, 41), (38, 39), (40, 43), (44, 45), (46, 47),
  (48, 49), (0, 3), (1, 2), (4, 6), (5, 7), (8, 11), (9, 10), (16, 18), (17, 21), (20, 23),
  (22, 24), (25, 28), (26, 27), (29, 31), (30, 32), (33, 36), (34, 35), (41, 43), (42, 46),
  (45, 48), (47, 49), (0, 25), (1, 4), (3, 5), (6, 8), (7, 10), (12, 17), (15, 20), (16, 19),
  (18, 23), (21, 22), (26, 29), (28, 30), (31, 33), (32, 35), (37, 42), (40, 45), (41, 44),
  (43, 48), (46, 47), (1, 3), (2, 5), (6, 9), (8, 10), (12, 13), (14, 17), (18, 21), (19, 20),
  (22, 23), (26, 28), (27, 30), (31, 34), (33, 35), (37, 38), (39, 42), (43, 46), (44, 45),
  (47, 48), (2, 3), (4, 5), (6, 7), (8, 9), (11, 23), (12, 37), (13, 15), (14, 16), (17, 18),
  (21, 22), (27, 28), (29, 30), (31, 32), (33, 34), (36, 48), (38, 40), (39, 41), (42, 43),
  (46, 47), (0, 12), (4, 6), (5, 7), (10, 22), (11, 36), (13, 14), (15, 16), (17, 19),
  (18, 20), (23, 48), (29, 31), (30, 32), (35, 47), (38, 39), (40, 41), (42, 44), (43, 45),
  (1, 13), (3, 4), (5, 6), (7, 8), (10, 35), (14, 15), (16, 17), (18, 19), (20, 21), (22, 47),
  (23, 36), (26, 38), (28, 29), (30, 31), (32, 33), (39, 40), (41, 42), (43, 44), (45, 46),
  (1, 26), (2, 14), (4, 29), (5, 30), (6, 31), (7, 32), (8, 49), (9, 21), (13, 38), (15, 16),
  (17, 18), (19, 44), (20, 45), (22, 35), (24, 33), (27, 39), (34, 46), (40, 41), (42, 43),
  (2, 27), (3, 15), (4, 37), (7, 19), (8, 24), (9, 34), (13, 26), (14, 39), (16, 41), (17, 42),
  (18, 43), (21, 46), (28, 40), (29, 45), (32, 44), (33, 49), (3, 28), (4, 12), (5, 17),
  (6, 18), (9, 38), (10, 39), (14, 27), (15, 40), (16, 25), (19, 32), (20, 29), (21, 34),
  (24, 33), (30, 42), (31, 43), (36, 44), (48, 49), (5, 13), (6, 14), (8, 16), (9, 26),
  (10, 27), (11, 40), (12, 20), (15, 28), (17, 30), (18, 31), (21, 38), (22, 39), (25, 41),
  (29, 37), (33, 45), (34, 42), (35, 43), (47, 48), (4, 8), (7, 15), (9, 13), (10, 14),
  (11, 28), (16, 25), (17, 26), (18, 27), (20, 29), (21, 30), (22, 31), (23, 40), (24, 41),
  (34, 38), (35, 39), (43, 45), (1, 4), (3, 9), (8, 12), (11, 15), (13, 17), (14, 18),
  (16, 20), (19, 28), (21, 26), (22, 27), (23, 32), (24, 25), (30, 34), (31, 35), (33, 41),
  (36, 40), (2, 8), (7, 13), (11, 17), (12, 16), (15, 19), (23, 28), (24, 29), (25, 37),
  (32, 36), (39, 41), (40, 46), (2, 4), (5, 8), (6, 12), (10, 16), (11, 13), (15, 21),
  (19, 26), (20, 24), (23, 30), (25, 29), (28, 34), (32, 38), (33, 37), (36, 42), (40, 43),
  (45, 46), (6, 8), (7, 10), (9, 12), (14, 20), (18, 24), (22, 25), (27, 29), (31, 33),
  (35, 37), (36, 39), (41, 42), (44, 46), (3, 6), (7, 12), (14, 16), (15, 18), (17, 20),
  (19, 24), (21, 22), (23, 25), (26, 27), (28, 29), (30, 31), (32, 35), (33, 34), (37, 38),
  (40, 41), (42, 43), (44, 47), (3, 5), (6, 8), (7, 9), (10, 12), (11, 14), (13, 16), (15, 17),
  (18, 20), (19, 21), (22, 24), (23, 26), (25, 27), (28, 30), (29, 31), (32, 33), (34, 35),
  (36, 37), (38, 39), (41, 42), (44, 45), (46, 47), (3, 4), (7, 8), (11, 12), (13, 14),
  (15, 16), (17, 18), (19, 20), (21, 22), (23, 24), (25, 26), (27, 28), (29, 30), (31, 32),
  (33, 34), (35, 36), (37, 38), (39, 40), (43, 44), (47, 48)]

/-- detail/sorting_network/sort50.h 410-432. -/
def netPairs50 : List (Nat × Nat) := [
  (0, 8), (1, 7), (2, 6), (3, 11), (4, 10), (5, 9), (12, 24), (13, 22), (14, 21), (15, 19),
  (17, 23), (18, 20), (25, 33), (26, 32), (27, 31), (28, 36), (29, 35), (30, 34), (37, 49),
  (38, 47), (39, 46), (40, 44), (42, 48), (43, 45), (0, 1), (2, 5), (3, 4), (6, 9), (7, 8),
  (10, 11), (13, 18), (14, 15), (16, 23), (19, 21), (20, 22), (25, 26), (27, 30), (28, 29),
  (31, 34), (32, 33), (35, 36), (38, 43), (39, 40), (41, 48), (44, 46), (45, 47), (0, 2),
  (1, 6), (5, 10), (9, 11), (12, 16), (13, 14), (15, 18), (19, 20), (21, 22), (23, 24),
  (25, 27), (26, 31), (30, 35), (34, 36), (37, 41), (38, 39), (40, 43), (44, 45), (46, 47),
  (48, 49), (0, 3), (1, 2), (4, 6), (5, 7), (8, 11), (9, 10), (16, 18), (17, 21), (20, 23),
  (22, 24), (25, 28), (26, 27), (29, 31), (30, 32), (33, 36), (34, 35), (41, 43), (42, 46),
  (45, 48), (47, 49), (0, 25), (1, 4), (3, 5), (6, 8), (7, 10), (12, 17), (15, 20), (16, 19),
  (18, 23), (21, 22), (26, 29), (28, 30), (31, 33), (32, 35), (37, 42), (40, 45), (41, 44),
  (43, 48), (46, 47), (1, 3), (2, 5), (6, 9), (8, 10), (12, 13), (14, 17), (18, 21), (19, 20),
  (22, 23), (26, 28), (27, 30), (31, 34), (33, 35), (37, 38), (39, 42), (43, 46), (44, 45),
  (47, 48), (2, 3), (4, 5), (6, 7), (8, 9), (11, 23), (12, 37), (13, 15), (14, 16), (17, 18),
  (21, 22), (27, 28), (29, 30), (31, 32), (33, 34), (36, 48), (38, 40), (39, 41), (42, 43),
  (46, 47), (0, 12), (4, 6), (5, 7), (10, 22), (11, 36), (13, 14), (15, 16), (17, 19),
  (18, 20), (23, 48), (29, 31), (30, 32), (35, 47), (38, 39), (40, 41), (42, 44), (43, 45),
  (1, 13), (3, 4), (5, 6), (7, 8), (10, 35), (14, 15), (16, 17), (18, 19), (20, 21), (22, 47),
  (23, 36), (26, 38), (28, 29), (30, 31), (32, 33), (39, 40), (41, 42), (43, 44), (45, 46),
  (1, 26), (2, 14), (4, 29), (5, 30), (6, 31), (7, 32), (8, 49), (9, 21), (13, 38), (15, 16),
  (17, 18), (19, 44), (20, 45), (22, 35), (24, 33), (27, 39), (34, 46), (40, 41), (42, 43),
  (2, 27), (3, 15), (4, 37), (7, 19), (8, 24), (9, 34), (13, 26), (14, 39), (16, 41), (17, 42),
  (18, 43), (21, 46), (28, 40), (29, 45), (32, 44), (33, 49), (3, 28), (4, 12), (5, 17),
  (6, 18), (9, 38), (10, 39), (14, 27), (15, 40), (16, 25), (19, 32), (20, 29), (21, 34),
  (24, 33), (30, 42), (31, 43), (36, 44), (48, 49), (5, 13), (6, 14), (8, 16), (9, 26),
  (10, 27), (11, 40), (12, 20), (15, 28), (17, 30), (18, 31), (21, 38), (22, 39), (25, 41),
  (29, 37), (33, 45), (34, 42), (35, 43), (47, 48), (4, 8), (7, 15), (9, 13), (10, 14),
  (11, 28), (16, 25), (17, 26), (18, 27), (20, 29), (21, 30), (22, 31), (23, 40), (24, 41),
  (34, 38), (35, 39), (43, 45), (1, 4), (3, 9), (8, 12), (11, 15), (13, 17), (14, 18),
  (16, 20), (19, 28), (21, 26), (22, 27), (23, 32), (24, 25), (30, 34), (31, 35), (33, 41),
  (36, 40), (2, 8), (7, 13), (11, 17), (12, 16), (15, 19), (23, 28), (24, 29), (25, 37),
  (32, 36), (39, 41), (40, 46), (2, 4), (5, 8), (6, 12), (10, 16), (11, 13), (15, 21),
  (19, 26), (20, 24), (23, 30), (25, 29), (28, 34), (32, 38), (33, 37), (36, 42), (40, 43),
  (45, 46), (6, 8), (7, 10), (9, 12), (14, 20), (18, 24), (22, 25), (27, 29), (31, 33),
  (35, 37), (36, 39), (41, 42), (44, 46), (3, 6), (7, 12), (14, 16), (15, 18), (17, 20),
  (19, 24), (21, 22), (23, 25), (26, 27), (28, 29), (30, 31), (32, 35), (33, 34), (37, 38),
  (40, 41), (42, 43), (44, 47), (3, 5), (6, 8), (7, 9), (10, 12), (11, 14), (13, 16), (15, 17),
  (18, 20), (19, 21), (22, 24), (23, 26), (25, 27), (28, 30), (29, 31), (32, 33), (34, 35),
  (36, 37), (38, 39), (41, 42), (44, 45), (46, 47), (3, 4), (7, 8), (11, 12), (13, 14),
  (15, 16), (17, 18), (19, 20), (21, 22), (23, 24), (25, 26), (27, 28), (29, 30), (31, 32),
  (33, 34), (35, 36), (37, 38), (39, 40), (43, 44), (47, 48)]

/-- detail/sorting_network/sort51.h 27-413. -/
def net51 : List (Nat × Nat) := [
  (0, 8), (1, 7), (2, 6), (3, 11), (4, 10), (5, 9), (12, 24), (13, 22), (14, 21), (15, 19),
  (17, 23), (18, 20), (25, 37), (26, 35), (27, 34), (28, 32), (30, 36), (31, 33), (38, 50),
  (39, 48), (40, 47), (41, 45), (43, 49), (44, 46), (0, 1), (2, 5), (3, 4), (6, 9), (7, 8),
  (10, 11), (13, 18), (14, 15), (16, 23), (19, 21), (20, 22), (26, 31), (27, 28), (29, 36),
  (32, 34), (33, 35), (39, 44), (40, 41), (42, 49), (45, 47), (46, 48), (0, 2), (1, 6),
  (5, 10), (9, 11), (12, 16), (13, 14), (15, 18), (19, 20), (21, 22), (23, 24), (25, 29),
  (26, 27), (28, 31), (32, 33), (34, 35), (36, 37), (38, 42), (39, 40), (41, 44), (45, 46),
  (47, 48), (49, 50), (0, 3), (1, 2), (4, 6), (5, 7), (8, 11), (9, 10), (16, 18), (17, 21),
  (20, 23), (22, 24), (29, 31), (30, 34), (33, 36), (35, 37), (42, 44), (43, 47), (46, 49),
  (48, 50), (1, 4), (3, 5), (6, 8), (7, 10), (12, 17), (15, 20), (16, 19), (18, 23), (21, 22),
  (25, 30), (28, 33), (29, 32), (31, 36), (34, 35), (37, 50), (38, 43), (41, 46), (42, 45),
  (44, 49), (47, 48), (1, 3), (2, 5), (6, 9), (8, 10), (12, 13), (14, 17), (18, 21), (19, 20),
  (22, 23), (25, 26), (27, 30), (31, 34), (32, 33), (35, 36), (38, 39), (40, 43), (44, 47),
  (45, 46), (48, 49), (2, 3), (4, 5), (6, 7), (8, 9), (11, 23), (12, 38), (13, 15), (14, 16),
  (17, 18), (21, 22), (26, 28), (27, 29), (30, 31), (34, 35), (36, 49), (39, 41), (40, 42),
  (43, 44), (47, 48), (4, 6), (5, 7), (10, 22), (11, 36), (12, 25), (13, 14), (15, 16),
  (17, 19), (18, 20), (23, 49), (26, 27), (28, 29), (30, 32), (31, 33), (35, 48), (39, 40),
  (41, 42), (43, 45), (44, 46), (1, 13), (3, 4), (5, 6), (7, 8), (10, 35), (14, 15), (16, 17),
  (18, 19), (20, 21), (22, 48), (23, 36), (26, 39), (27, 28), (29, 30), (31, 32), (33, 34),
  (40, 41), (42, 43), (44, 45), (46, 47), (1, 26), (2, 14), (4, 33), (7, 32), (8, 24), (9, 21),
  (13, 39), (15, 16), (17, 18), (19, 45), (20, 46), (22, 35), (27, 40), (28, 29), (30, 31),
  (34, 47), (41, 42), (43, 44), (0, 29), (2, 27), (3, 15), (4, 38), (5, 30), (6, 31), (7, 19),
  (8, 37), (9, 34), (13, 26), (14, 40), (16, 42), (17, 43), (18, 44), (20, 25), (21, 47),
  (24, 50), (28, 41), (32, 45), (33, 46), (0, 16), (3, 28), (4, 20), (5, 17), (6, 18), (9, 39),
  (10, 40), (14, 27), (15, 41), (19, 32), (21, 34), (24, 37), (29, 42), (30, 43), (31, 44),
  (33, 38), (36, 45), (49, 50), (0, 12), (5, 13), (6, 14), (8, 29), (9, 26), (10, 27),
  (11, 41), (15, 28), (17, 30), (18, 31), (21, 39), (22, 40), (24, 42), (25, 33), (34, 43),
  (35, 44), (37, 46), (4, 12), (7, 15), (9, 13), (10, 14), (11, 28), (16, 29), (17, 26),
  (18, 27), (20, 25), (21, 30), (22, 31), (23, 41), (33, 38), (34, 39), (35, 40), (37, 42),
  (46, 48), (1, 4), (3, 9), (8, 16), (11, 15), (13, 17), (14, 18), (19, 28), (21, 26),
  (22, 27), (23, 32), (24, 29), (30, 34), (31, 35), (36, 41), (42, 45), (48, 49), (7, 13),
  (8, 20), (11, 17), (15, 19), (16, 25), (23, 28), (24, 33), (29, 38), (32, 36), (41, 47),
  (42, 44), (8, 12), (15, 21), (16, 20), (19, 26), (23, 30), (24, 25), (28, 34), (29, 33),
  (32, 39), (36, 43), (37, 38), (46, 47), (2, 8), (6, 12), (10, 16), (14, 20), (18, 24),
  (22, 25), (27, 29), (31, 33), (32, 34), (35, 37), (38, 40), (41, 43), (44, 46), (45, 47),
  (2, 4), (3, 8), (5, 6), (7, 10), (9, 12), (11, 14), (13, 16), (15, 20), (17, 18), (19, 22),
  (21, 24), (23, 27), (25, 26), (28, 31), (29, 30), (33, 35), (36, 38), (37, 39), (40, 42),
  (45, 46), (47, 48), (3, 5), (6, 8), (7, 12), (11, 16), (15, 17), (18, 20), (19, 24),
  (23, 25), (26, 27), (28, 29), (30, 31), (32, 33), (34, 35), (36, 39), (40, 41), (42, 43),
  (3, 4), (5, 6), (7, 9), (10, 12), (11, 13), (14, 16), (17, 18), (19, 21), (22, 24), (25, 26),
  (27, 28), (29, 30), (31, 32), (33, 34), (36, 37), (38, 39), (41, 42), (43, 44), (7, 8),
  (11, 12), (15, 16), (19, 20), (23, 24), (35, 36), (39, 40)]

/-- detail/sorting_network/sort51.h 421-444. -/
def netPairs51 : List (Nat × Nat) := [
  (0, 8), (1, 7), (2, 6), (3, 11), (4, 10), (5, 9), (12, 24), (13, 22), (14, 21), (15, 19),
  (17, 23), (18, 20), (25, 37), (26, 35), (27, 34), (28, 32), (30, 36), (31, 33), (38, 50),
  (39, 48), (40, 47), (41, 45), (43, 49), (44, 46), (0, 1), (2, 5), (3, 4), (6, 9), (7, 8),
  (10, 11), (13, 18), (14, 15), (16, 23), (19, 21), (20, 22), (26, 31), (27, 28), (29, 36),
  (32, 34), (33, 35), (39, 44), (40, 41), (42, 49), (45, 47), (46, 48), (0, 2), (1, 6),
  (5, 10), (9, 11), (12, 16), (13, 14), (15, 18), (19, 20), (21, 22), (23, 24), (25, 29),
  (26, 27), (28, 31), (32, 33), (34, 35), (36, 37), (38, 42), (39, 40), (41, 44), (45, 46),
  (47, 48), (49, 50), (0, 3), (1, 2), (4, 6), (5, 7), (8, 11), (9, 10), (16, 18), (17, 21),
  (20, 23), (22, 24), (29, 31), (30, 34), (33, 36), (35, 37), (42, 44), (43, 47), (46, 49),
  (48, 50), (1, 4), (3, 5), (6, 8), (7, 10), (12, 17), (15, 20), (16, 19), (18, 23), (21, 22),
  (25, 30), (28, 33), (29, 32), (31, 36), (34, 35), (37, 50), (38, 43), (41, 46), (42, 45),
  (44, 49), (47, 48), (1, 3), (2, 5), (6, 9), (8, 10), (12, 13), (14, 17), (18, 21), (19, 20),
  (22, 23), (25, 26), (27, 30), (31, 34), (32, 33), (35, 36), (38, 39), (40, 43), (44, 47),
  (45, 46), (48, 49), (2, 3), (4, 5), (6, 7), (8, 9), (11, 23), (12, 38), (13, 15), (14, 16),
  (17, 18), (21, 22), (26, 28), (27, 29), (30, 31), (34, 35), (36, 49), (39, 41), (40, 42),
  (43, 44), (47, 48), (4, 6), (5, 7), (10, 22), (11, 36), (12, 25), (13, 14), (15, 16),
  (17, 19), (18, 20), (23, 49), (26, 27), (28, 29), (30, 32), (31, 33), (35, 48), (39, 40),
  (41, 42), (43, 45), (44, 46), (1, 13), (3, 4), (5, 6), (7, 8), (10, 35), (14, 15), (16, 17),
  (18, 19), (20, 21), (22, 48), (23, 36), (26, 39), (27, 28), (29, 30), (31, 32), (33, 34),
  (40, 41), (42, 43), (44, 45), (46, 47), (1, 26), (2, 14), (4, 33), (7, 32), (8, 24), (9, 21),
  (13, 39), (15, 16), (17, 18), (19, 45), (20, 46), (22, 35), (27, 40), (28, 29), (30, 31),
  (34, 47), (41, 42), (43, 44), (0, 29), (2, 27), (3, 15), (4, 38), (5, 30), (6, 31), (7, 19),
  (8, 37), (9, 34), (13, 26), (14, 40), (16, 42), (17, 43), (18, 44), (20, 25), (21, 47),
  (24, 50), (28, 41), (32, 45), (33, 46), (0, 16), (3, 28), (4, 20), (5, 17), (6, 18), (9, 39),
  (10, 40), (14, 27), (15, 41), (19, 32), (21, 34), (24, 37), (29, 42), (30, 43), (31, 44),
  (33, 38), (36, 45), (49, 50), (0, 12), (5, 13), (6, 14), (8, 29), (9, 26), (10, 27),
  (11, 41), (15, 28), (17, 30), (18, 31), (21, 39), (22, 40), (24, 42), (25, 33), (34, 43),
  (35, 44), (37, 46), (4, 12), (7, 15), (9, 13), (10, 14), (11, 28), (16, 29), (17, 26),
  (18, 27), (20, 25), (21, 30), (22, 31), (23, 41), (33, 38), (34, 39), (35, 40), (37, 42),
  (46, 48), (1, 4), (3, 9), (8, 16), (11, 15), (13, 17), (14, 18), (19, 28), (21, 26),
  (22, 27), (23, 32), (24, 29), (30, 34), (31, 35), (36, 41), (42, 45), (48, 49), (7, 13),
  (8, 20), (11, 17), (15, 19), (16, 25), (23, 28), (24, 33), (29, 38), (32, 36), (41, 47),
  (42, 44), (8, 12), (15, 21), (16, 20), (19, 26), (23, 30), (24, 25), (28, 34), (29, 33),
  (32, 39), (36, 43), (37, 38), (46, 47), (2, 8), (6, 12), (10, 16), (14, 20), (18, 24),
  (22, 25), (27, 29), (31, 33), (32, 34), (35, 37), (38, 40), (41, 43), (44, 46), (45, 47),
  (2, 4), (3, 8), (5, 6), (7, 10), (9, 12), (11, 14), (13, 16), (15, 20), (17, 18), (19, 22),
  (21, 24), (23, 27), (25, 26), (28, 31), (29, 30), (33, 35), (36, 38), (37, 39), (40, 42),
  (45, 46), (47, 48), (3, 5), (6, 8), (7, 12), (11, 16), (15, 17), (18, 20), (19, 24),
  (23, 25), (26, 27), (28, 29), (30, 31), (32, 33), (34, 35), (36, 39), (40, 41), (42, 43),
  (3, 4), (5, 6), (7, 9), (10, 12), (11, 13), (14, 16), (17, 18), (19, 21), (22, 24), (25, 26),
  (27, 28), (29, 30), (31, 32), (33, 34), (36, 37), (38, 39), (41, 42), (43, 44), (7, 8),
  (11, 12), (15, 16), (19, 20), (23, 24), (35, 36), (39, 40)]

/-- detail/sorting_network/sort52.h 27-421. -/
def net52 : List (Nat × Nat) := [
  (0, 2), (1, 3), (4, 6), (5, 7), (8, 10), (9, 11), (12, 14), (13, 15), (16, 18), (17, 19),
  (20, 22), (21, 23), (24, 26), (25, 27), (28, 30), (29, 31), (32, 34), (33, 35), (36, 38),
  (37, 39), (40, 42), (41, 43), (44, 46), (45, 47), (48, 50), (49, 51), (0, 1), (2, 3), (4, 5),
  (6, 7), (8, 9), (10, 11), (12, 13), (14, 15), (16, 17), (18, 19), (20, 21), (22, 23),
  (24, 25), (26, 27), (28, 29), (30, 31), (32, 33), (34, 35), (36, 37), (38, 39), (40, 41),
  (42, 43), (44, 45), (46, 47), (48, 49), (50, 51), (0, 48), (1, 2), (3, 51), (4, 40), (5, 6),
  (7, 31), (8, 36), (9, 10), (11, 47), (12, 28), (13, 14), (15, 43), (17, 18), (19, 27),
  (20, 44), (21, 22), (23, 39), (24, 32), (25, 26), (29, 30), (33, 34), (37, 38), (41, 42),
  (45, 46), (49, 50), (1, 49), (2, 50), (4, 24), (5, 41), (6, 30), (7, 35), (8, 12), (9, 37),
  (10, 46), (11, 19), (13, 29), (14, 42), (15, 23), (16, 44), (18, 26), (21, 45), (22, 38),
  (25, 33), (27, 47), (28, 36), (32, 40), (39, 43), (0, 16), (3, 7), (4, 8), (5, 25), (6, 34),
  (9, 13), (10, 18), (11, 15), (12, 24), (14, 22), (17, 45), (19, 23), (26, 46), (27, 39),
  (28, 32), (29, 37), (33, 41), (35, 51), (36, 40), (38, 42), (43, 47), (44, 48), (1, 17),
  (2, 6), (3, 11), (5, 9), (7, 19), (10, 14), (13, 25), (15, 31), (16, 24), (18, 22), (20, 36),
  (26, 38), (27, 35), (29, 33), (32, 44), (34, 50), (37, 41), (40, 48), (42, 46), (45, 49),
  (0, 20), (2, 10), (6, 18), (7, 27), (11, 15), (12, 32), (14, 30), (16, 28), (17, 25),
  (19, 39), (21, 37), (23, 35), (24, 44), (26, 34), (31, 51), (33, 45), (36, 40), (41, 49),
  (0, 4), (1, 21), (6, 26), (7, 11), (8, 20), (10, 14), (13, 33), (15, 27), (17, 29), (18, 38),
  (19, 23), (22, 34), (24, 36), (25, 45), (28, 32), (30, 50), (31, 43), (37, 41), (40, 44),
  (47, 51), (1, 5), (4, 12), (6, 10), (8, 16), (9, 21), (11, 15), (14, 26), (18, 22), (20, 24),
  (25, 37), (27, 31), (29, 33), (30, 42), (35, 43), (36, 40), (39, 47), (41, 45), (46, 50),
  (4, 8), (5, 13), (9, 17), (10, 14), (12, 16), (19, 27), (20, 28), (21, 25), (23, 31),
  (24, 32), (26, 30), (34, 42), (35, 39), (37, 41), (38, 46), (43, 47), (5, 9), (8, 12),
  (10, 40), (11, 41), (13, 17), (15, 19), (16, 20), (18, 26), (21, 29), (22, 30), (23, 27),
  (24, 28), (25, 33), (31, 35), (32, 36), (34, 38), (39, 43), (42, 46), (2, 32), (7, 36),
  (9, 13), (11, 40), (12, 16), (14, 18), (15, 44), (17, 21), (19, 49), (20, 24), (22, 26),
  (25, 29), (27, 31), (30, 34), (33, 37), (35, 39), (38, 42), (1, 16), (3, 33), (5, 12),
  (9, 24), (10, 32), (13, 17), (14, 15), (18, 48), (19, 41), (21, 25), (26, 30), (27, 42),
  (34, 38), (35, 50), (36, 37), (39, 46), (1, 4), (2, 16), (3, 18), (6, 21), (11, 25),
  (13, 28), (15, 29), (17, 32), (19, 34), (22, 36), (23, 38), (26, 40), (30, 45), (33, 48),
  (35, 49), (47, 50), (2, 8), (3, 24), (6, 20), (7, 21), (10, 17), (12, 13), (14, 28),
  (18, 32), (19, 33), (23, 37), (27, 48), (30, 44), (31, 45), (34, 41), (38, 39), (43, 49),
  (2, 4), (3, 16), (6, 12), (7, 20), (11, 24), (15, 28), (19, 25), (21, 22), (23, 36),
  (26, 32), (27, 40), (29, 30), (31, 44), (35, 48), (39, 45), (47, 49), (3, 9), (7, 13),
  (10, 16), (11, 17), (14, 20), (15, 21), (18, 24), (19, 26), (22, 28), (23, 29), (25, 32),
  (27, 33), (30, 36), (31, 37), (34, 40), (35, 41), (38, 44), (42, 48), (3, 8), (7, 9),
  (10, 12), (11, 13), (14, 16), (15, 17), (18, 20), (19, 22), (21, 24), (23, 25), (26, 28),
  (27, 30), (29, 32), (31, 33), (34, 36), (35, 37), (38, 40), (39, 41), (42, 44), (43, 48),
  (3, 5), (6, 8), (7, 10), (9, 12), (11, 14), (13, 16), (15, 18), (17, 20), (19, 21), (22, 24),
  (23, 26), (25, 28), (27, 29), (30, 32), (31, 34), (33, 36), (35, 38), (37, 40), (39, 42),
  (41, 44), (43, 45), (46, 48), (3, 4), (5, 6), (7, 8), (9, 10), (11, 12), (13, 14), (15, 16),
  (17, 18), (19, 20), (21, 22), (23, 24), (25, 26), (27, 28), (29, 30), (31, 32), (33, 34),
  (35, 36), (37, 38), (39, 40), (41, 42), (43, 44), (45, 46), (47, 48)]

/-- detail/sorting_network/sort52.h 429-450. -/
def netPairs52 : List (Nat × Nat) := [
  (0, 2), (1, 3), (4, 6), (5, 7), (8, 10), (9, 11), (12, 14), (13, 15), (16, 18), (17, 19),
  (20, 22), (21, 23), (24, 26), (25, 27), (28, 30), (29, 31), (32, 34), (33, 35), (36, 38),
  (37, 39), (40, 42), (41, 43), (44, 46), (45, 47), (48, 50), (49, 51), (0, 1), (2, 3), (4, 5),
  (6, 7), (8, 9), (10, 11), (12, 13), (14, 15), (16, 17), (18, 19), (20, 21), (22, 23),
  (24, 25), (26, 27), (28, 29), (30, 31), (32, 33), (34, 35), (36, 37), (38, 39), (40, 41),
  (42, 43), (44, 45), (46, 47), (48, 49), (50, 51), (0, 48), (1, 2), (3, 51), (4, 40), (5, 6),
  (7, 31), (8, 36), (9, 10), (11, 47), (12, 28), (13, 14), (15, 43), (17, 18), (19, 27),
  (20, 44), (21, 22), (23, 39), (24, 32), (25, 26), (29, 30), (33, 34), (37, 38), (41, 42),
  (45, 46), (49, 50), (1, 49), (2, 50), (4, 24), (5, 41), (6, 30), (7, 35), (8, 12), (9, 37),
  (10, 46), (11, 19), (13, 29), (14, 42), (15, 23), (16, 44), (18, 26), (21, 45), (22, 38),
  (25, 33), (27, 47), (28, 36), (32, 40), (39, 43), (0, 16), (3, 7), (4, 8), (5, 25), (6, 34),
  (9, 13), (10, 18), (11, 15), (12, 24), (14, 22), (17, 45), (19, 23), (26, 46), (27, 39),
  (28, 32), (29, 37), (33, 41), (35, 51), (36, 40), (38, 42), (43, 47), (44, 48), (1, 17),
  (2, 6), (3, 11), (5, 9), (7, 19), (10, 14), (13, 25), (15, 31), (16, 24), (18, 22), (20, 36),
  (26, 38), (27, 35), (29, 33), (32, 44), (34, 50), (37, 41), (40, 48), (42, 46), (45, 49),
  (0, 20), (2, 10), (6, 18), (7, 27), (11, 15), (12, 32), (14, 30), (16, 28), (17, 25),
  (19, 39), (21, 37), (23, 35), (24, 44), (26, 34), (31, 51), (33, 45), (36, 40), (41, 49),
  (0, 4), (1, 21), (6, 26), (7, 11), (8, 20), (10, 14), (13, 33), (15, 27), (17, 29), (18, 38),
  (19, 23), (22, 34), (24, 36), (25, 45), (28, 32), (30, 50), (31, 43), (37, 41), (40, 44),
  (47, 51), (1, 5), (4, 12), (6, 10), (8, 16), (9, 21), (11, 15), (14, 26), (18, 22), (20, 24),
  (25, 37), (27, 31), (29, 33), (30, 42), (35, 43), (36, 40), (39, 47), (41, 45), (46, 50),
  (4, 8), (5, 13), (9, 17), (10, 14), (12, 16), (19, 27), (20, 28), (21, 25), (23, 31),
  (24, 32), (26, 30), (34, 42), (35, 39), (37, 41), (38, 46), (43, 47), (5, 9), (8, 12),
  (10, 40), (11, 41), (13, 17), (15, 19), (16, 20), (18, 26), (21, 29), (22, 30), (23, 27),
  (24, 28), (25, 33), (31, 35), (32, 36), (34, 38), (39, 43), (42, 46), (2, 32), (7, 36),
  (9, 13), (11, 40), (12, 16), (14, 18), (15, 44), (17, 21), (19, 49), (20, 24), (22, 26),
  (25, 29), (27, 31), (30, 34), (33, 37), (35, 39), (38, 42), (1, 16), (3, 33), (5, 12),
  (9, 24), (10, 32), (13, 17), (14, 15), (18, 48), (19, 41), (21, 25), (26, 30), (27, 42),
  (34, 38), (35, 50), (36, 37), (39, 46), (1, 4), (2, 16), (3, 18), (6, 21), (11, 25),
  (13, 28), (15, 29), (17, 32), (19, 34), (22, 36), (23, 38), (26, 40), (30, 45), (33, 48),
  (35, 49), (47, 50), (2, 8), (3, 24), (6, 20), (7, 21), (10, 17), (12, 13), (14, 28),
  (18, 32), (19, 33), (23, 37), (27, 48), (30, 44), (31, 45), (34, 41), (38, 39), (43, 49),
  (2, 4), (3, 16), (6, 12), (7, 20), (11, 24), (15, 28), (19, 25), (21, 22), (23, 36),
  (26, 32), (27, 40), (29, 30), (31, 44), (35, 48), (39, 45), (47, 49), (3, 9), (7, 13),
  (10, 16), (11, 17), (14, 20), (15, 21), (18, 24), (19, 26), (22, 28), (23, 29), (25, 32),
  (27, 33), (30, 36), (31, 37), (34, 40), (35, 41), (38, 44), (42, 48), (3, 8), (7, 9),
  (10, 12), (11, 13), (14, 16), (15, 17), (18, 20), (19, 22), (21, 24), (23, 25), (26, 28),
  (27, 30), (29, 32), (31, 33), (34, 36), (35, 37), (38, 40), (39, 41), (42, 44), (43, 48),
  (3, 5), (6, 8), (7, 10), (9, 12), (11, 14), (13, 16), (15, 18), (17, 20), (19, 21), (22, 24),
  (23, 26), (25, 28), (27, 29), (30, 32), (31, 34), (33, 36), (35, 38), (37, 40), (39, 42),
  (41, 44), (43, 45), (46, 48), (3, 4), (5, 6), (7, 8), (9, 10), (11, 12), (13, 14), (15, 16),
  (17, 18), (19, 20), (21, 22), (23, 24), (25, 26), (27, 28), (29, 30), (31, 32), (33, 34),
  (35, 36), (37, 38), (39, 40), (41, 42), (43, 44), (45, 46), (47, 48)]

/-- detail/sorting_network/sort53.h 27-437. -/
def net53 : List (Nat × Nat) := [
  (0, 12), (1, 10), (2, 9), (3, 7), (5, 11), (6, 8), (13, 25), (14, 23), (15, 22), (16, 20),
  (18, 24), (19, 21), (26, 38), (27, 36), (28, 35), (29, 33), (31, 37), (32, 34), (39, 45),
  (40, 50), (41, 51), (42, 49), (43, 44), (46, 52), (47, 48), (1, 6), (2, 3), (4, 11), (7, 9),
  (8, 10), (14, 19), (15, 16), (17, 24), (20, 22), (21, 23), (27, 32), (28, 29), (30, 37),
  (33, 35), (34, 36), (40, 41), (42, 46), (43, 47), (44, 48), (45, 49), (50, 51), (0, 4),
  (1, 2), (3, 6), (7, 8), (9, 10), (11, 12), (13, 17), (14, 15), (16, 19), (20, 21), (22, 23),
  (24, 25), (26, 30), (27, 28), (29, 32), (33, 34), (35, 36), (37, 38), (39, 43), (40, 42),
  (44, 45), (46, 47), (48, 52), (49, 51), (4, 6), (5, 9), (8, 11), (10, 12), (17, 19),
  (18, 22), (21, 24), (23, 25), (30, 32), (31, 35), (34, 37), (36, 38), (39, 40), (41, 48),
  (42, 46), (43, 50), (45, 49), (51, 52), (0, 5), (3, 8), (4, 7), (6, 11), (9, 10), (13, 18),
  (16, 21), (17, 20), (19, 24), (22, 23), (25, 38), (26, 31), (29, 34), (30, 33), (32, 37),
  (35, 36), (41, 44), (43, 46), (45, 48), (47, 50), (0, 1), (2, 5), (6, 9), (7, 8), (10, 11),
  (13, 14), (15, 18), (19, 22), (20, 21), (23, 24), (26, 27), (28, 31), (32, 35), (33, 34),
  (36, 37), (40, 41), (42, 43), (45, 46), (48, 49), (50, 51), (0, 26), (1, 3), (2, 4), (5, 6),
  (9, 10), (11, 24), (13, 39), (14, 16), (15, 17), (18, 19), (22, 23), (27, 29), (28, 30),
  (31, 32), (35, 36), (40, 42), (41, 43), (44, 45), (46, 47), (48, 50), (49, 51), (0, 13),
  (1, 2), (3, 4), (5, 7), (6, 8), (10, 23), (12, 51), (14, 15), (16, 17), (18, 20), (19, 21),
  (26, 39), (27, 28), (29, 30), (31, 33), (32, 34), (41, 42), (43, 46), (45, 48), (49, 50),
  (1, 27), (2, 3), (4, 5), (6, 7), (8, 9), (12, 25), (13, 26), (14, 40), (15, 16), (17, 18),
  (19, 20), (21, 22), (28, 29), (30, 31), (32, 33), (34, 35), (37, 50), (38, 51), (43, 44),
  (45, 46), (47, 48), (1, 14), (2, 15), (3, 4), (5, 6), (7, 33), (8, 34), (9, 35), (11, 37),
  (16, 17), (18, 19), (22, 52), (24, 50), (25, 38), (27, 40), (28, 41), (29, 30), (31, 32),
  (42, 43), (44, 45), (46, 47), (48, 49), (2, 28), (3, 16), (4, 43), (5, 31), (6, 32), (9, 22),
  (14, 27), (15, 41), (17, 30), (19, 45), (20, 46), (21, 47), (24, 37), (29, 42), (35, 52),
  (36, 49), (3, 29), (4, 17), (5, 44), (6, 19), (7, 20), (8, 21), (10, 36), (15, 28), (16, 42),
  (18, 31), (22, 35), (23, 49), (30, 43), (32, 45), (33, 46), (34, 47), (4, 13), (6, 15),
  (8, 26), (10, 41), (11, 42), (12, 17), (16, 29), (19, 32), (20, 33), (21, 34), (23, 36),
  (25, 43), (31, 48), (37, 46), (38, 47), (40, 44), (1, 4), (7, 16), (8, 13), (9, 31),
  (10, 28), (11, 29), (17, 30), (18, 40), (21, 39), (22, 44), (23, 41), (24, 42), (35, 48),
  (36, 45), (38, 43), (47, 52), (2, 8), (5, 18), (9, 27), (10, 15), (11, 16), (12, 21),
  (17, 26), (19, 28), (20, 29), (23, 32), (24, 33), (25, 39), (30, 34), (31, 40), (35, 44),
  (36, 41), (37, 42), (43, 49), (46, 47), (2, 4), (5, 14), (12, 17), (15, 19), (16, 20),
  (21, 26), (23, 28), (24, 29), (25, 30), (27, 31), (32, 36), (33, 37), (34, 39), (35, 40),
  (42, 48), (49, 50), (5, 8), (9, 14), (12, 13), (17, 21), (18, 27), (22, 31), (25, 26),
  (30, 34), (33, 40), (37, 44), (38, 39), (43, 48), (47, 49), (50, 52), (3, 9), (6, 12),
  (10, 13), (14, 18), (15, 17), (19, 21), (22, 27), (23, 25), (26, 28), (30, 32), (31, 35),
  (34, 36), (38, 41), (39, 45), (49, 50), (51, 52), (3, 6), (7, 14), (10, 12), (11, 18),
  (16, 22), (20, 27), (24, 31), (25, 26), (29, 35), (32, 33), (36, 37), (38, 40), (39, 42),
  (41, 44), (45, 46), (3, 8), (7, 9), (11, 15), (13, 14), (16, 19), (17, 18), (20, 23),
  (21, 22), (24, 27), (28, 31), (29, 30), (34, 35), (36, 38), (37, 40), (39, 44), (43, 45),
  (46, 48), (3, 5), (6, 8), (7, 10), (9, 12), (11, 13), (14, 15), (16, 17), (18, 19), (20, 21),
  (22, 23), (24, 25), (26, 27), (28, 29), (30, 31), (32, 34), (33, 35), (37, 38), (39, 41),
  (42, 44), (45, 46), (47, 48), (3, 4), (7, 8), (9, 10), (11, 12), (13, 14), (15, 16),
  (17, 18), (19, 20), (21, 22), (23, 24), (25, 26), (27, 28), (29, 30), (31, 32), (33, 34),
  (35, 36), (39, 40), (43, 44)]

/-- detail/sorting_network/sort53.h 445-468. -/
def netPairs53 : List (Nat × Nat) := [
  (0, 12), (1, 10), (2, 9), (3, 7), (5, 11), (6, 8), (13, 25), (14, 23), (15, 22), (16, 20),
  (18, 24), (19, 21), (26, 38), (27, 36), (28, 35), (29, 33), (31, 37), (32, 34), (39, 45),
  (40, 50), (41, 51), (42, 49), (43, 44), (46, 52), (47, 48), (1, 6), (2, 3), (4, 11), (7, 9),
  (8, 10), (14, 19), (15, 16), (17, 24), (20, 22), (21, 23), (27, 32), (28, 29), (30, 37),
  (33, 35), (34, 36), (40, 41), (42, 46), (43, 47), (44, 48), (45, 49), (50, 51), (0, 4),
  (1, 2), (3, 6), (7, 8), (9, 10), (11, 12), (13, 17), (14, 15), (16, 19), (20, 21), (22, 23),
  (24, 25), (26, 30), (27, 28), (29, 32), (33, 34), (35, 36), (37, 38), (39, 43), (40, 42),
  (44, 45), (46, 47), (48, 52), (49, 51), (4, 6), (5, 9), (8, 11), (10, 12), (17, 19),
  (18, 22), (21, 24), (23, 25), (30, 32), (31, 35), (34, 37), (36, 38), (39, 40), (41, 48),
  (42, 46), (43, 50), (45, 49), (51, 52), (0, 5), (3, 8), (4, 7), (6, 11), (9, 10), (13, 18),
  (16, 21), (17, 20), (19, 24), (22, 23), (25, 38), (26, 31), (29, 34), (30, 33), (32, 37),
  (35, 36), (41, 44), (43, 46), (45, 48), (47, 50), (0, 1), (2, 5), (6, 9), (7, 8), (10, 11),
  (13, 14), (15, 18), (19, 22), (20, 21), (23, 24), (26, 27), (28, 31), (32, 35), (33, 34),
  (36, 37), (40, 41), (42, 43), (45, 46), (48, 49), (50, 51), (0, 26), (1, 3), (2, 4), (5, 6),
  (9, 10), (11, 24), (13, 39), (14, 16), (15, 17), (18, 19), (22, 23), (27, 29), (28, 30),
  (31, 32), (35, 36), (40, 42), (41, 43), (44, 45), (46, 47), (48, 50), (49, 51), (0, 13),
  (1, 2), (3, 4), (5, 7), (6, 8), (10, 23), (12, 51), (14, 15), (16, 17), (18, 20), (19, 21),
  (26, 39), (27, 28), (29, 30), (31, 33), (32, 34), (41, 42), (43, 46), (45, 48), (49, 50),
  (1, 27), (2, 3), (4, 5), (6, 7), (8, 9), (12, 25), (13, 26), (14, 40), (15, 16), (17, 18),
  (19, 20), (21, 22), (28, 29), (30, 31), (32, 33), (34, 35), (37, 50), (38, 51), (43, 44),
  (45, 46), (47, 48), (1, 14), (2, 15), (3, 4), (5, 6), (7, 33), (8, 34), (9, 35), (11, 37),
  (16, 17), (18, 19), (22, 52), (24, 50), (25, 38), (27, 40), (28, 41), (29, 30), (31, 32),
  (42, 43), (44, 45), (46, 47), (48, 49), (2, 28), (3, 16), (4, 43), (5, 31), (6, 32), (9, 22),
  (14, 27), (15, 41), (17, 30), (19, 45), (20, 46), (21, 47), (24, 37), (29, 42), (35, 52),
  (36, 49), (3, 29), (4, 17), (5, 44), (6, 19), (7, 20), (8, 21), (10, 36), (15, 28), (16, 42),
  (18, 31), (22, 35), (23, 49), (30, 43), (32, 45), (33, 46), (34, 47), (4, 13), (6, 15),
  (8, 26), (10, 41), (11, 42), (12, 17), (16, 29), (19, 32), (20, 33), (21, 34), (23, 36),
  (25, 43), (31, 48), (37, 46), (38, 47), (40, 44), (1, 4), (7, 16), (8, 13), (9, 31),
  (10, 28), (11, 29), (17, 30), (18, 40), (21, 39), (22, 44), (23, 41), (24, 42), (35, 48),
  (36, 45), (38, 43), (47, 52), (2, 8), (5, 18), (9, 27), (10, 15), (11, 16), (12, 21),
  (17, 26), (19, 28), (20, 29), (23, 32), (24, 33), (25, 39), (30, 34), (31, 40), (35, 44),
  (36, 41), (37, 42), (43, 49), (46, 47), (2, 4), (5, 14), (12, 17), (15, 19), (16, 20),
  (21, 26), (23, 28), (24, 29), (25, 30), (27, 31), (32, 36), (33, 37), (34, 39), (35, 40),
  (42, 48), (49, 50), (5, 8), (9, 14), (12, 13), (17, 21), (18, 27), (22, 31), (25, 26),
  (30, 34), (33, 40), (37, 44), (38, 39), (43, 48), (47, 49), (50, 52), (3, 9), (6, 12),
  (10, 13), (14, 18), (15, 17), (19, 21), (22, 27), (23, 25), (26, 28), (30, 32), (31, 35),
  (34, 36), (38, 41), (39, 45), (49, 50), (51, 52), (3, 6), (7, 14), (10, 12), (11, 18),
  (16, 22), (20, 27), (24, 31), (25, 26), (29, 35), (32, 33), (36, 37), (38, 40), (39, 42),
  (41, 44), (45, 46), (3, 8), (7, 9), (11, 15), (13, 14), (16, 19), (17, 18), (20, 23),
  (21, 22), (24, 27), (28, 31), (29, 30), (34, 35), (36, 38), (37, 40), (39, 44), (43, 45),
  (46, 48), (3, 5), (6, 8), (7, 10), (9, 12), (11, 13), (14, 15), (16, 17), (18, 19), (20, 21),
  (22, 23), (24, 25), (26, 27), (28, 29), (30, 31), (32, 34), (33, 35), (37, 38), (39, 41),
  (42, 44), (45, 46), (47, 48), (3, 4), (7, 8), (9, 10), (11, 12), (13, 14), (15, 16),
  (17, 18), (19, 20), (21, 22), (23, 24), (25, 26), (27, 28), (29, 30), (31, 32), (33, 34),
  (35, 36), (39, 40), (43, 44)]

/-- detail/sorting_network/sort54.h 27-447. -/
def net54 : List (Nat × Nat) := [
  (0, 13), (1, 12), (2, 15), (3, 14), (4, 8), (5, 6), (7, 11), (9, 10), (16, 35), (17, 34),
  (18, 37), (19, 36), (20, 30), (21, 22), (23, 33), (24, 29), (25, 27), (26, 28), (31, 32),
  (38, 51), (39, 50), (40, 53), (41, 52), (42, 46), (43, 44), (45, 49), (47, 48), (0, 5),
  (1, 7), (2, 9), (3, 4), (6, 13), (8, 14), (10, 15), (11, 12), (16, 21), (17, 23), (18, 31),
  (19, 20), (22, 35), (25, 26), (27, 28), (30, 36), (32, 37), (33, 34), (38, 43), (39, 45),
  (40, 47), (41, 42), (44, 51), (46, 52), (48, 53), (49, 50), (0, 1), (2, 3), (4, 5), (6, 8),
  (7, 9), (10, 11), (12, 13), (14, 15), (16, 17), (18, 19), (20, 21), (22, 30), (23, 31),
  (24, 27), (26, 29), (32, 33), (34, 35), (36, 37), (38, 39), (40, 41), (42, 43), (44, 46),
  (45, 47), (48, 49), (50, 51), (52, 53), (0, 2), (1, 3), (4, 10), (5, 11), (6, 7), (8, 9),
  (12, 14), (13, 15), (16, 18), (17, 19), (20, 32), (21, 33), (22, 23), (24, 25), (26, 27),
  (28, 29), (30, 31), (34, 36), (35, 37), (38, 40), (39, 41), (42, 48), (43, 49), (44, 45),
  (46, 47), (50, 52), (51, 53), (0, 38), (1, 2), (3, 12), (4, 6), (5, 7), (8, 10), (9, 11),
  (13, 14), (15, 53), (16, 24), (17, 18), (19, 34), (20, 22), (21, 23), (25, 26), (27, 28),
  (29, 37), (30, 32), (31, 33), (35, 36), (39, 40), (41, 50), (42, 44), (43, 45), (46, 48),
  (47, 49), (51, 52), (0, 16), (1, 4), (2, 6), (5, 8), (7, 10), (9, 13), (11, 14), (15, 29),
  (17, 20), (18, 22), (21, 30), (23, 32), (24, 38), (31, 35), (33, 36), (37, 53), (39, 42),
  (40, 44), (43, 46), (45, 48), (47, 51), (49, 52), (1, 39), (2, 4), (3, 6), (9, 12), (11, 13),
  (14, 52), (16, 24), (18, 20), (19, 22), (29, 37), (31, 34), (33, 35), (40, 42), (41, 44),
  (47, 50), (49, 51), (1, 17), (2, 40), (3, 5), (6, 8), (7, 9), (10, 12), (13, 51), (18, 26),
  (19, 21), (22, 30), (23, 31), (27, 35), (32, 34), (36, 52), (41, 43), (44, 46), (45, 47),
  (48, 50), (2, 18), (3, 4), (5, 6), (7, 8), (9, 10), (11, 12), (13, 27), (19, 20), (21, 22),
  (23, 30), (26, 40), (31, 32), (33, 34), (35, 51), (41, 42), (43, 44), (45, 46), (47, 48),
  (49, 50), (2, 24), (3, 41), (4, 42), (5, 43), (6, 7), (8, 9), (10, 48), (11, 49), (12, 50),
  (13, 39), (14, 40), (18, 26), (19, 25), (22, 23), (27, 35), (28, 34), (29, 51), (30, 31),
  (44, 45), (46, 47), (3, 19), (4, 20), (6, 44), (7, 45), (8, 46), (9, 47), (10, 32), (12, 28),
  (13, 17), (15, 23), (21, 43), (25, 41), (30, 38), (33, 49), (34, 50), (36, 40), (1, 3),
  (4, 12), (6, 22), (7, 15), (8, 30), (9, 17), (10, 26), (11, 33), (14, 32), (19, 25),
  (20, 42), (21, 39), (23, 45), (27, 43), (28, 34), (31, 47), (36, 44), (38, 46), (41, 49),
  (50, 52), (1, 16), (3, 13), (5, 21), (6, 18), (7, 19), (8, 24), (11, 25), (12, 20), (14, 26),
  (15, 23), (17, 31), (22, 36), (27, 39), (28, 42), (29, 45), (30, 38), (32, 48), (33, 41),
  (34, 46), (35, 47), (37, 52), (40, 50), (4, 16), (5, 13), (10, 18), (11, 19), (14, 22),
  (17, 21), (20, 28), (23, 29), (24, 30), (25, 33), (31, 39), (32, 36), (34, 42), (35, 43),
  (37, 49), (40, 48), (2, 4), (8, 16), (9, 17), (12, 24), (15, 25), (20, 30), (21, 27),
  (23, 33), (26, 32), (28, 38), (29, 41), (36, 44), (37, 45), (49, 51), (3, 8), (9, 13),
  (12, 16), (14, 20), (15, 17), (18, 24), (19, 21), (22, 28), (23, 27), (25, 31), (26, 30),
  (29, 35), (32, 34), (33, 39), (36, 38), (37, 41), (40, 44), (45, 50), (3, 4), (6, 12),
  (7, 9), (10, 16), (11, 13), (14, 18), (15, 19), (17, 21), (20, 24), (22, 26), (23, 25),
  (27, 31), (28, 30), (29, 33), (32, 36), (34, 38), (35, 39), (37, 43), (40, 42), (41, 47),
  (44, 46), (49, 50), (5, 7), (6, 8), (9, 11), (10, 12), (13, 15), (14, 16), (17, 19),
  (18, 20), (21, 23), (22, 24), (25, 27), (26, 28), (29, 31), (30, 32), (33, 35), (34, 36),
  (37, 39), (38, 40), (41, 43), (42, 44), (45, 47), (46, 48), (5, 8), (7, 10), (9, 12),
  (11, 14), (13, 16), (15, 18), (17, 20), (19, 22), (21, 24), (23, 26), (25, 28), (27, 30),
  (29, 32), (31, 34), (33, 36), (35, 38), (37, 40), (39, 42), (41, 44), (43, 46), (45, 48),
  (5, 6), (7, 8), (9, 10), (11, 12), (13, 14), (15, 16), (17, 18), (19, 20), (21, 22),
  (23, 24), (25, 26), (27, 28), (29, 30), (31, 32), (33, 34), (35, 36), (37, 38), (39, 40),
  (41, 42), (43, 44), (45, 46), (47, 48)]

/-- detail/sorting_network/sort54.h 455-476. -/
def netPairs54 : List (Nat × Nat) := [
  (0, 13), (1, 12), (2, 15), (3, 14), (4, 8), (5, 6), (7, 11), (9, 10), (16, 35), (17, 34),
  (18, 37), (19, 36), (20, 30), (21, 22), (23, 33), (24, 29), (25, 27), (26, 28), (31, 32),
  (38, 51), (39, 50), (40, 53), (41, 52), (42, 46), (43, 44), (45, 49), (47, 48), (0, 5),
  (1, 7), (2, 9), (3, 4), (6, 13), (8, 14), (10, 15), (11, 12), (16, 21), (17, 23), (18, 31),
  (19, 20), (22, 35), (25, 26), (27, 28), (30, 36), (32, 37), (33, 34), (38, 43), (39, 45),
  (40, 47), (41, 42), (44, 51), (46, 52), (48, 53), (49, 50), (0, 1), (2, 3), (4, 5), (6, 8),
  (7, 9), (10, 11), (12, 13), (14, 15), (16, 17), (18, 19), (20, 21), (22, 30), (23, 31),
  (24, 27), (26, 29), (32, 33), (34, 35), (36, 37), (38, 39), (40, 41), (42, 43), (44, 46),
  (45, 47), (48, 49), (50, 51), (52, 53), (0, 2), (1, 3), (4, 10), (5, 11), (6, 7), (8, 9),
  (12, 14), (13, 15), (16, 18), (17, 19), (20, 32), (21, 33), (22, 23), (24, 25), (26, 27),
  (28, 29), (30, 31), (34, 36), (35, 37), (38, 40), (39, 41), (42, 48), (43, 49), (44, 45),
  (46, 47), (50, 52), (51, 53), (0, 38), (1, 2), (3, 12), (4, 6), (5, 7), (8, 10), (9, 11),
  (13, 14), (15, 53), (16, 24), (17, 18), (19, 34), (20, 22), (21, 23), (25, 26), (27, 28),
  (29, 37), (30, 32), (31, 33), (35, 36), (39, 40), (41, 50), (42, 44), (43, 45), (46, 48),
  (47, 49), (51, 52), (0, 16), (1, 4), (2, 6), (5, 8), (7, 10), (9, 13), (11, 14), (15, 29),
  (17, 20), (18, 22), (21, 30), (23, 32), (24, 38), (31, 35), (33, 36), (37, 53), (39, 42),
  (40, 44), (43, 46), (45, 48), (47, 51), (49, 52), (1, 39), (2, 4), (3, 6), (9, 12), (11, 13),
  (14, 52), (16, 24), (18, 20), (19, 22), (29, 37), (31, 34), (33, 35), (40, 42), (41, 44),
  (47, 50), (49, 51), (1, 17), (2, 40), (3, 5), (6, 8), (7, 9), (10, 12), (13, 51), (18, 26),
  (19, 21), (22, 30), (23, 31), (27, 35), (32, 34), (36, 52), (41, 43), (44, 46), (45, 47),
  (48, 50), (2, 18), (3, 4), (5, 6), (7, 8), (9, 10), (11, 12), (13, 27), (19, 20), (21, 22),
  (23, 30), (26, 40), (31, 32), (33, 34), (35, 51), (41, 42), (43, 44), (45, 46), (47, 48),
  (49, 50), (2, 24), (3, 41), (4, 42), (5, 43), (6, 7), (8, 9), (10, 48), (11, 49), (12, 50),
  (13, 39), (14, 40), (18, 26), (19, 25), (22, 23), (27, 35), (28, 34), (29, 51), (30, 31),
  (44, 45), (46, 47), (3, 19), (4, 20), (6, 44), (7, 45), (8, 46), (9, 47), (10, 32), (12, 28),
  (13, 17), (15, 23), (21, 43), (25, 41), (30, 38), (33, 49), (34, 50), (36, 40), (1, 3),
  (4, 12), (6, 22), (7, 15), (8, 30), (9, 17), (10, 26), (11, 33), (14, 32), (19, 25),
  (20, 42), (21, 39), (23, 45), (27, 43), (28, 34), (31, 47), (36, 44), (38, 46), (41, 49),
  (50, 52), (1, 16), (3, 13), (5, 21), (6, 18), (7, 19), (8, 24), (11, 25), (12, 20), (14, 26),
  (15, 23), (17, 31), (22, 36), (27, 39), (28, 42), (29, 45), (30, 38), (32, 48), (33, 41),
  (34, 46), (35, 47), (37, 52), (40, 50), (4, 16), (5, 13), (10, 18), (11, 19), (14, 22),
  (17, 21), (20, 28), (23, 29), (24, 30), (25, 33), (31, 39), (32, 36), (34, 42), (35, 43),
  (37, 49), (40, 48), (2, 4), (8, 16), (9, 17), (12, 24), (15, 25), (20, 30), (21, 27),
  (23, 33), (26, 32), (28, 38), (29, 41), (36, 44), (37, 45), (49, 51), (3, 8), (9, 13),
  (12, 16), (14, 20), (15, 17), (18, 24), (19, 21), (22, 28), (23, 27), (25, 31), (26, 30),
  (29, 35), (32, 34), (33, 39), (36, 38), (37, 41), (40, 44), (45, 50), (3, 4), (6, 12),
  (7, 9), (10, 16), (11, 13), (14, 18), (15, 19), (17, 21), (20, 24), (22, 26), (23, 25),
  (27, 31), (28, 30), (29, 33), (32, 36), (34, 38), (35, 39), (37, 43), (40, 42), (41, 47),
  (44, 46), (49, 50), (5, 7), (6, 8), (9, 11), (10, 12), (13, 15), (14, 16), (17, 19),
  (18, 20), (21, 23), (22, 24), (25, 27), (26, 28), (29, 31), (30, 32), (33, 35), (34, 36),
  (37, 39), (38, 40), (41, 43), (42, 44), (45, 47), (46, 48), (5, 8), (7, 10), (9, 12),
  (11, 14), (13, 16), (15, 18), (17, 20), (19, 22), (21, 24), (23, 26), (25, 28), (27, 30),
  (29, 32), (31, 34), (33, 36), (35, 38), (37, 40), (39, 42), (41, 44), (43, 46), (45, 48),
  (5, 6), (7, 8), (9, 10), (11, 12), (13, 14), (15, 16), (17, 18), (19, 20), (21, 22),
  (23, 24), (25, 26), (27, 28), (29, 30), (31, 32), (33, 34), (35, 36), (37, 38), (39, 40),
  (41, 42), (43, 44), (45, 46), (47, 48)]

/-- detail/sorting_network/sort55.h 27-458. -/
def net55 : List (Nat × Nat) := [
  (1, 12), (2, 13), (3, 14), (4, 8), (5, 6), (7, 11), (9, 10), (15, 18), (16, 37), (17, 36),
  (19, 38), (20, 32), (21, 22), (23, 35), (24, 26), (25, 27), (28, 30), (29, 31), (33, 34),
  (39, 42), (40, 53), (41, 52), (43, 54), (44, 48), (45, 46), (47, 51), (49, 50), (0, 5),
  (1, 7), (2, 9), (3, 4), (8, 14), (10, 13), (11, 12), (15, 33), (16, 21), (17, 23), (18, 34),
  (19, 20), (22, 37), (24, 28), (25, 29), (26, 30), (27, 31), (32, 38), (35, 36), (39, 49),
  (40, 45), (41, 47), (42, 50), (43, 44), (46, 53), (48, 54), (51, 52), (0, 1), (2, 3), (4, 5),
  (6, 8), (7, 9), (10, 11), (13, 14), (15, 19), (16, 17), (18, 35), (20, 21), (22, 32),
  (23, 33), (24, 25), (26, 27), (28, 29), (30, 31), (34, 38), (36, 37), (39, 43), (40, 41),
  (42, 51), (44, 45), (46, 48), (47, 49), (50, 54), (52, 53), (0, 2), (1, 3), (4, 10), (5, 11),
  (6, 7), (8, 9), (12, 13), (15, 16), (17, 19), (18, 20), (21, 35), (22, 23), (26, 28),
  (27, 29), (32, 33), (34, 36), (37, 38), (39, 40), (41, 43), (42, 44), (45, 51), (46, 47),
  (48, 49), (50, 52), (53, 54), (0, 24), (1, 2), (3, 12), (4, 6), (5, 7), (8, 10), (9, 11),
  (13, 14), (15, 39), (16, 17), (18, 22), (19, 34), (20, 32), (21, 23), (25, 28), (27, 30),
  (31, 54), (33, 35), (36, 37), (40, 41), (42, 46), (43, 50), (44, 48), (45, 47), (49, 51),
  (52, 53), (0, 15), (1, 4), (2, 6), (5, 8), (7, 10), (9, 13), (11, 14), (16, 18), (17, 22),
  (20, 21), (23, 32), (24, 39), (25, 26), (27, 28), (29, 30), (31, 38), (33, 36), (35, 37),
  (40, 42), (41, 46), (44, 45), (47, 48), (49, 52), (51, 53), (1, 16), (2, 4), (3, 6), (9, 12),
  (11, 13), (14, 30), (15, 24), (17, 18), (19, 22), (25, 40), (33, 34), (35, 36), (37, 53),
  (38, 54), (41, 42), (43, 46), (49, 50), (51, 52), (1, 25), (2, 26), (3, 5), (6, 8), (7, 9),
  (10, 12), (13, 36), (14, 37), (16, 40), (17, 41), (19, 20), (21, 22), (23, 33), (29, 52),
  (30, 53), (32, 34), (43, 44), (45, 46), (47, 49), (48, 50), (2, 17), (3, 4), (5, 6), (7, 8),
  (9, 10), (11, 12), (13, 29), (16, 25), (18, 19), (20, 21), (22, 23), (26, 41), (30, 37),
  (32, 33), (34, 35), (36, 52), (42, 43), (44, 45), (46, 47), (48, 49), (50, 51), (2, 15),
  (3, 27), (4, 43), (5, 44), (6, 7), (8, 9), (10, 49), (11, 50), (12, 35), (13, 25), (17, 26),
  (18, 42), (21, 22), (23, 32), (28, 51), (29, 36), (30, 41), (45, 46), (47, 48), (52, 54),
  (3, 18), (4, 19), (5, 20), (6, 21), (7, 31), (8, 23), (9, 40), (12, 28), (14, 45), (22, 46),
  (27, 42), (32, 48), (33, 49), (34, 50), (35, 51), (39, 47), (5, 13), (6, 14), (7, 22),
  (8, 39), (9, 32), (10, 33), (11, 34), (12, 24), (18, 27), (19, 43), (20, 44), (21, 45),
  (23, 47), (28, 35), (31, 46), (38, 42), (40, 48), (41, 49), (4, 12), (6, 17), (7, 18),
  (8, 15), (9, 16), (10, 26), (11, 27), (19, 24), (20, 25), (22, 31), (23, 39), (28, 43),
  (29, 44), (30, 33), (34, 38), (35, 47), (36, 48), (37, 45), (42, 50), (46, 52), (1, 4),
  (3, 9), (10, 17), (11, 18), (12, 19), (14, 30), (16, 20), (21, 26), (24, 28), (25, 40),
  (27, 34), (29, 32), (33, 37), (35, 43), (36, 44), (38, 42), (45, 51), (50, 53), (1, 2),
  (4, 8), (5, 9), (13, 20), (14, 21), (15, 19), (22, 27), (23, 24), (25, 29), (26, 30),
  (28, 39), (31, 34), (32, 40), (33, 41), (38, 46), (45, 49), (50, 52), (53, 54), (3, 4),
  (12, 15), (13, 16), (14, 23), (17, 19), (18, 25), (20, 22), (21, 26), (24, 28), (27, 31),
  (29, 32), (30, 35), (33, 39), (34, 40), (36, 38), (37, 41), (42, 46), (51, 52), (4, 8),
  (6, 12), (7, 13), (10, 15), (11, 16), (14, 17), (18, 20), (19, 23), (21, 24), (22, 25),
  (26, 28), (27, 29), (30, 33), (31, 32), (34, 36), (35, 39), (37, 43), (38, 40), (41, 47),
  (42, 44), (46, 48), (50, 51), (5, 8), (7, 10), (9, 12), (11, 14), (13, 15), (16, 17),
  (18, 19), (20, 21), (22, 23), (24, 25), (26, 27), (28, 29), (30, 31), (32, 35), (33, 34),
  (36, 39), (37, 38), (40, 43), (41, 42), (44, 47), (45, 46), (49, 50), (6, 8), (7, 9),
  (10, 12), (11, 13), (14, 15), (16, 18), (17, 19), (20, 22), (21, 23), (24, 26), (25, 27),
  (28, 30), (29, 31), (32, 33), (34, 35), (36, 37), (38, 39), (40, 41), (42, 43), (44, 45),
  (46, 47), (48, 49), (5, 6), (7, 8), (9, 10), (11, 12), (13, 14), (15, 16), (17, 18),
  (19, 20), (21, 22), (23, 24), (25, 26), (27, 28), (29, 30), (31, 32), (33, 34), (35, 36),
  (37, 38), (39, 40), (41, 42), (43, 44), (45, 46), (47, 48), (49, 50)]

/-- detail/sorting_network/sort55.h 466-487. -/
def netPairs55 : List (Nat × Nat) := [
  (1, 12), (2, 13), (3, 14), (4, 8), (5, 6), (7, 11), (9, 10), (15, 18), (16, 37), (17, 36),
  (19, 38), (20, 32), (21, 22), (23, 35), (24, 26), (25, 27), (28, 30), (29, 31), (33, 34),
  (39, 42), (40, 53), (41, 52), (43, 54), (44, 48), (45, 46), (47, 51), (49, 50), (0, 5),
  (1, 7), (2, 9), (3, 4), (8, 14), (10, 13), (11, 12), (15, 33), (16, 21), (17, 23), (18, 34),
  (19, 20), (22, 37), (24, 28), (25, 29), (26, 30), (27, 31), (32, 38), (35, 36), (39, 49),
  (40, 45), (41, 47), (42, 50), (43, 44), (46, 53), (48, 54), (51, 52), (0, 1), (2, 3), (4, 5),
  (6, 8), (7, 9), (10, 11), (13, 14), (15, 19), (16, 17), (18, 35), (20, 21), (22, 32),
  (23, 33), (24, 25), (26, 27), (28, 29), (30, 31), (34, 38), (36, 37), (39, 43), (40, 41),
  (42, 51), (44, 45), (46, 48), (47, 49), (50, 54), (52, 53), (0, 2), (1, 3), (4, 10), (5, 11),
  (6, 7), (8, 9), (12, 13), (15, 16), (17, 19), (18, 20), (21, 35), (22, 23), (26, 28),
  (27, 29), (32, 33), (34, 36), (37, 38), (39, 40), (41, 43), (42, 44), (45, 51), (46, 47),
  (48, 49), (50, 52), (53, 54), (0, 24), (1, 2), (3, 12), (4, 6), (5, 7), (8, 10), (9, 11),
  (13, 14), (15, 39), (16, 17), (18, 22), (19, 34), (20, 32), (21, 23), (25, 28), (27, 30),
  (31, 54), (33, 35), (36, 37), (40, 41), (42, 46), (43, 50), (44, 48), (45, 47), (49, 51),
  (52, 53), (0, 15), (1, 4), (2, 6), (5, 8), (7, 10), (9, 13), (11, 14), (16, 18), (17, 22),
  (20, 21), (23, 32), (24, 39), (25, 26), (27, 28), (29, 30), (31, 38), (33, 36), (35, 37),
  (40, 42), (41, 46), (44, 45), (47, 48), (49, 52), (51, 53), (1, 16), (2, 4), (3, 6), (9, 12),
  (11, 13), (14, 30), (15, 24), (17, 18), (19, 22), (25, 40), (33, 34), (35, 36), (37, 53),
  (38, 54), (41, 42), (43, 46), (49, 50), (51, 52), (1, 25), (2, 26), (3, 5), (6, 8), (7, 9),
  (10, 12), (13, 36), (14, 37), (16, 40), (17, 41), (19, 20), (21, 22), (23, 33), (29, 52),
  (30, 53), (32, 34), (43, 44), (45, 46), (47, 49), (48, 50), (2, 17), (3, 4), (5, 6), (7, 8),
  (9, 10), (11, 12), (13, 29), (16, 25), (18, 19), (20, 21), (22, 23), (26, 41), (30, 37),
  (32, 33), (34, 35), (36, 52), (42, 43), (44, 45), (46, 47), (48, 49), (50, 51), (2, 15),
  (3, 27), (4, 43), (5, 44), (6, 7), (8, 9), (10, 49), (11, 50), (12, 35), (13, 25), (17, 26),
  (18, 42), (21, 22), (23, 32), (28, 51), (29, 36), (30, 41), (45, 46), (47, 48), (52, 54),
  (3, 18), (4, 19), (5, 20), (6, 21), (7, 31), (8, 23), (9, 40), (12, 28), (14, 45), (22, 46),
  (27, 42), (32, 48), (33, 49), (34, 50), (35, 51), (39, 47), (5, 13), (6, 14), (7, 22),
  (8, 39), (9, 32), (10, 33), (11, 34), (12, 24), (18, 27), (19, 43), (20, 44), (21, 45),
  (23, 47), (28, 35), (31, 46), (38, 42), (40, 48), (41, 49), (4, 12), (6, 17), (7, 18),
  (8, 15), (9, 16), (10, 26), (11, 27), (19, 24), (20, 25), (22, 31), (23, 39), (28, 43),
  (29, 44), (30, 33), (34, 38), (35, 47), (36, 48), (37, 45), (42, 50), (46, 52), (1, 4),
  (3, 9), (10, 17), (11, 18), (12, 19), (14, 30), (16, 20), (21, 26), (24, 28), (25, 40),
  (27, 34), (29, 32), (33, 37), (35, 43), (36, 44), (38, 42), (45, 51), (50, 53), (1, 2),
  (4, 8), (5, 9), (13, 20), (14, 21), (15, 19), (22, 27), (23, 24), (25, 29), (26, 30),
  (28, 39), (31, 34), (32, 40), (33, 41), (38, 46), (45, 49), (50, 52), (53, 54), (3, 4),
  (12, 15), (13, 16), (14, 23), (17, 19), (18, 25), (20, 22), (21, 26), (24, 28), (27, 31),
  (29, 32), (30, 35), (33, 39), (34, 40), (36, 38), (37, 41), (42, 46), (51, 52), (4, 8),
  (6, 12), (7, 13), (10, 15), (11, 16), (14, 17), (18, 20), (19, 23), (21, 24), (22, 25),
  (26, 28), (27, 29), (30, 33), (31, 32), (34, 36), (35, 39), (37, 43), (38, 40), (41, 47),
  (42, 44), (46, 48), (50, 51), (5, 8), (7, 10), (9, 12), (11, 14), (13, 15), (16, 17),
  (18, 19), (20, 21), (22, 23), (24, 25), (26, 27), (28, 29), (30, 31), (32, 35), (33, 34),
  (36, 39), (37, 38), (40, 43), (41, 42), (44, 47), (45, 46), (49, 50), (6, 8), (7, 9),
  (10, 12), (11, 13), (14, 15), (16, 18), (17, 19), (20, 22), (21, 23), (24, 26), (25, 27),
  (28, 30), (29, 31), (32, 33), (34, 35), (36, 37), (38, 39), (40, 41), (42, 43), (44, 45),
  (46, 47), (48, 49), (5, 6), (7, 8), (9, 10), (11, 12), (13, 14), (15, 16), (17, 18),
  (19, 20), (21, 22), (23, 24), (25, 26), (27, 28), (29, 30), (31, 32), (33, 34), (35, 36),
  (37, 38), (39, 40), (41, 42), (43, 44), (45, 46), (47, 48), (49, 50)]

/-- detail/sorting_network/sort56.h 27-464. -/
def net56 : List (Nat × Nat) := [
  (0, 13), (1, 12), (2, 15), (3, 14), (4, 8), (5, 6), (7, 11), (9, 10), (16, 37), (17, 36),
  (18, 39), (19, 38), (20, 32), (21, 22), (23, 35), (24, 26), (25, 27), (28, 30), (29, 31),
  (33, 34), (40, 53), (41, 52), (42, 55), (43, 54), (44, 48), (45, 46), (47, 51), (49, 50),
  (0, 5), (1, 7), (2, 9), (3, 4), (6, 13), (8, 14), (10, 15), (11, 12), (16, 21), (17, 23),
  (18, 33), (19, 20), (22, 37), (24, 28), (25, 29), (26, 30), (27, 31), (32, 38), (34, 39),
  (35, 36), (40, 45), (41, 47), (42, 49), (43, 44), (46, 53), (48, 54), (50, 55), (51, 52),
  (0, 1), (2, 3), (4, 5), (6, 8), (7, 9), (10, 11), (12, 13), (14, 15), (16, 17), (18, 19),
  (20, 21), (22, 32), (23, 33), (24, 25), (26, 27), (28, 29), (30, 31), (34, 35), (36, 37),
  (38, 39), (40, 41), (42, 43), (44, 45), (46, 48), (47, 49), (50, 51), (52, 53), (54, 55),
  (0, 2), (1, 3), (4, 10), (5, 11), (6, 7), (8, 9), (12, 14), (13, 15), (16, 18), (17, 19),
  (20, 34), (21, 35), (22, 23), (26, 28), (27, 29), (32, 33), (36, 38), (37, 39), (40, 42),
  (41, 43), (44, 50), (45, 51), (46, 47), (48, 49), (52, 54), (53, 55), (0, 24), (1, 2),
  (3, 12), (4, 6), (5, 7), (8, 10), (9, 11), (13, 14), (15, 39), (16, 40), (17, 18), (19, 36),
  (20, 22), (21, 23), (25, 28), (27, 30), (31, 55), (32, 34), (33, 35), (37, 38), (41, 42),
  (43, 52), (44, 46), (45, 47), (48, 50), (49, 51), (53, 54), (0, 16), (1, 4), (2, 6), (5, 8),
  (7, 10), (9, 13), (11, 14), (15, 31), (17, 20), (18, 22), (21, 32), (23, 34), (24, 40),
  (25, 26), (27, 28), (29, 30), (33, 37), (35, 38), (39, 55), (41, 44), (42, 46), (45, 48),
  (47, 50), (49, 53), (51, 54), (1, 17), (2, 4), (3, 6), (9, 12), (11, 13), (14, 30), (16, 24),
  (18, 20), (19, 22), (25, 41), (31, 39), (33, 36), (35, 37), (38, 54), (42, 44), (43, 46),
  (49, 52), (51, 53), (1, 25), (2, 26), (3, 5), (6, 8), (7, 9), (10, 12), (13, 37), (14, 38),
  (17, 41), (18, 42), (19, 21), (22, 32), (23, 33), (29, 53), (30, 54), (34, 36), (43, 45),
  (46, 48), (47, 49), (50, 52), (2, 18), (3, 4), (5, 6), (7, 8), (9, 10), (11, 12), (13, 29),
  (17, 25), (19, 20), (21, 22), (23, 32), (26, 42), (30, 38), (33, 34), (35, 36), (37, 53),
  (43, 44), (45, 46), (47, 48), (49, 50), (51, 52), (2, 16), (3, 27), (4, 44), (5, 45), (6, 7),
  (8, 9), (10, 50), (11, 51), (12, 36), (13, 25), (18, 26), (19, 43), (22, 23), (28, 52),
  (29, 37), (30, 42), (32, 33), (39, 53), (46, 47), (48, 49), (3, 19), (4, 20), (5, 21),
  (6, 22), (7, 15), (8, 32), (9, 41), (12, 28), (14, 46), (23, 47), (27, 43), (33, 49),
  (34, 50), (35, 51), (36, 52), (40, 48), (5, 13), (6, 14), (7, 23), (8, 40), (9, 33),
  (10, 34), (11, 35), (12, 24), (15, 47), (19, 27), (20, 44), (21, 45), (22, 46), (28, 36),
  (31, 43), (32, 48), (41, 49), (42, 50), (4, 12), (6, 18), (7, 19), (8, 16), (9, 17),
  (10, 26), (11, 27), (15, 23), (20, 24), (21, 25), (28, 44), (29, 45), (30, 34), (31, 35),
  (32, 40), (36, 48), (37, 49), (38, 46), (39, 47), (43, 51), (1, 4), (3, 9), (10, 18),
  (11, 19), (12, 20), (14, 30), (17, 21), (22, 26), (24, 28), (25, 41), (27, 31), (29, 33),
  (34, 38), (35, 43), (36, 44), (37, 45), (46, 52), (51, 54), (1, 2), (4, 8), (5, 9), (13, 21),
  (14, 22), (15, 27), (16, 20), (23, 31), (24, 32), (25, 29), (26, 30), (28, 40), (33, 41),
  (34, 42), (35, 39), (46, 50), (47, 51), (53, 54), (3, 4), (12, 16), (13, 17), (14, 24),
  (15, 21), (18, 20), (19, 25), (22, 26), (23, 27), (28, 32), (29, 33), (30, 36), (31, 41),
  (34, 40), (35, 37), (38, 42), (39, 43), (51, 52), (4, 8), (6, 12), (7, 13), (10, 16),
  (11, 17), (14, 18), (15, 19), (20, 24), (21, 25), (22, 28), (23, 29), (26, 32), (27, 33),
  (30, 34), (31, 35), (36, 40), (37, 41), (38, 44), (39, 45), (42, 48), (43, 49), (47, 51),
  (5, 8), (7, 10), (9, 12), (11, 14), (13, 16), (15, 20), (17, 18), (19, 22), (21, 24),
  (23, 26), (25, 28), (27, 30), (29, 32), (31, 34), (33, 36), (35, 40), (37, 38), (39, 42),
  (41, 44), (43, 46), (45, 48), (47, 50), (6, 8), (7, 9), (10, 12), (11, 13), (14, 16),
  (15, 17), (18, 20), (19, 21), (22, 24), (23, 25), (26, 28), (27, 29), (30, 32), (31, 33),
  (34, 36), (35, 37), (38, 40), (39, 41), (42, 44), (43, 45), (46, 48), (47, 49), (5, 6),
  (7, 8), (9, 10), (11, 12), (13, 14), (15, 16), (17, 18), (19, 20), (21, 22), (23, 24),
  (25, 26), (27, 28), (29, 30), (31, 32), (33, 34), (35, 36), (37, 38), (39, 40), (41, 42),
  (43, 44), (45, 46), (47, 48), (49, 50)]

/-- detail/sorting_network/sort56.h 472-493. -/
def netPairs56 : List (Nat × Nat) := [
  (0, 13), (1, 12), (2, 15), (3, 14), (4, 8), (5, 6), (7, 11), (9, 10), (16, 37), (17, 36),
  (18, 39), (19, 38), (20, 32), (21, 22), (23, 35), (24, 26), (25, 27), (28, 30), (29, 31),
  (33, 34), (40, 53), (41, 52), (42, 55), (43, 54), (44, 48), (45, 46), (47, 51), (49, 50),
  (0, 5), (1, 7), (2, 9), (3, 4), (6, 13), (8, 14), (10, 15), (11, 12), (16, 21), (17, 23),
  (18, 33), (19, 20), (22, 37), (24, 28), (25, 29), (26, 30), (27, 31), (32, 38), (34, 39),
  (35, 36), (40, 45), (41, 47), (42, 49), (43, 44), (46, 53), (48, 54), (50, 55), (51, 52),
  (0, 1), (2, 3), (4, 5), (6, 8), (7, 9), (10, 11), (12, 13), (14, 15), (16, 17), (18, 19),
  (20, 21), (22, 32), (23, 33), (24, 25), (26, 27), (28, 29), (30, 31), (34, 35), (36, 37),
  (38, 39), (40, 41), (42, 43), (44, 45), (46, 48), (47, 49), (50, 51), (52, 53), (54, 55),
  (0, 2), (1, 3), (4, 10), (5, 11), (6, 7), (8, 9), (12, 14), (13, 15), (16, 18), (17, 19),
  (20, 34), (21, 35), (22, 23), (26, 28), (27, 29), (32, 33), (36, 38), (37, 39), (40, 42),
  (41, 43), (44, 50), (45, 51), (46, 47), (48, 49), (52, 54), (53, 55), (0, 24), (1, 2),
  (3, 12), (4, 6), (5, 7), (8, 10), (9, 11), (13, 14), (15, 39), (16, 40), (17, 18), (19, 36),
  (20, 22), (21, 23), (25, 28), (27, 30), (31, 55), (32, 34), (33, 35), (37, 38), (41, 42),
  (43, 52), (44, 46), (45, 47), (48, 50), (49, 51), (53, 54), (0, 16), (1, 4), (2, 6), (5, 8),
  (7, 10), (9, 13), (11, 14), (15, 31), (17, 20), (18, 22), (21, 32), (23, 34), (24, 40),
  (25, 26), (27, 28), (29, 30), (33, 37), (35, 38), (39, 55), (41, 44), (42, 46), (45, 48),
  (47, 50), (49, 53), (51, 54), (1, 17), (2, 4), (3, 6), (9, 12), (11, 13), (14, 30), (16, 24),
  (18, 20), (19, 22), (25, 41), (31, 39), (33, 36), (35, 37), (38, 54), (42, 44), (43, 46),
  (49, 52), (51, 53), (1, 25), (2, 26), (3, 5), (6, 8), (7, 9), (10, 12), (13, 37), (14, 38),
  (17, 41), (18, 42), (19, 21), (22, 32), (23, 33), (29, 53), (30, 54), (34, 36), (43, 45),
  (46, 48), (47, 49), (50, 52), (2, 18), (3, 4), (5, 6), (7, 8), (9, 10), (11, 12), (13, 29),
  (17, 25), (19, 20), (21, 22), (23, 32), (26, 42), (30, 38), (33, 34), (35, 36), (37, 53),
  (43, 44), (45, 46), (47, 48), (49, 50), (51, 52), (2, 16), (3, 27), (4, 44), (5, 45), (6, 7),
  (8, 9), (10, 50), (11, 51), (12, 36), (13, 25), (18, 26), (19, 43), (22, 23), (28, 52),
  (29, 37), (30, 42), (32, 33), (39, 53), (46, 47), (48, 49), (3, 19), (4, 20), (5, 21),
  (6, 22), (7, 15), (8, 32), (9, 41), (12, 28), (14, 46), (23, 47), (27, 43), (33, 49),
  (34, 50), (35, 51), (36, 52), (40, 48), (5, 13), (6, 14), (7, 23), (8, 40), (9, 33),
  (10, 34), (11, 35), (12, 24), (15, 47), (19, 27), (20, 44), (21, 45), (22, 46), (28, 36),
  (31, 43), (32, 48), (41, 49), (42, 50), (4, 12), (6, 18), (7, 19), (8, 16), (9, 17),
  (10, 26), (11, 27), (15, 23), (20, 24), (21, 25), (28, 44), (29, 45), (30, 34), (31, 35),
  (32, 40), (36, 48), (37, 49), (38, 46), (39, 47), (43, 51), (1, 4), (3, 9), (10, 18),
  (11, 19), (12, 20), (14, 30), (17, 21), (22, 26), (24, 28), (25, 41), (27, 31), (29, 33),
  (34, 38), (35, 43), (36, 44), (37, 45), (46, 52), (51, 54), (1, 2), (4, 8), (5, 9), (13, 21),
  (14, 22), (15, 27), (16, 20), (23, 31), (24, 32), (25, 29), (26, 30), (28, 40), (33, 41),
  (34, 42), (35, 39), (46, 50), (47, 51), (53, 54), (3, 4), (12, 16), (13, 17), (14, 24),
  (15, 21), (18, 20), (19, 25), (22, 26), (23, 27), (28, 32), (29, 33), (30, 36), (31, 41),
  (34, 40), (35, 37), (38, 42), (39, 43), (51, 52), (4, 8), (6, 12), (7, 13), (10, 16),
  (11, 17), (14, 18), (15, 19), (20, 24), (21, 25), (22, 28), (23, 29), (26, 32), (27, 33),
  (30, 34), (31, 35), (36, 40), (37, 41), (38, 44), (39, 45), (42, 48), (43, 49), (47, 51),
  (5, 8), (7, 10), (9, 12), (11, 14), (13, 16), (15, 20), (17, 18), (19, 22), (21, 24),
  (23, 26), (25, 28), (27, 30), (29, 32), (31, 34), (33, 36), (35, 40), (37, 38), (39, 42),
  (41, 44), (43, 46), (45, 48), (47, 50), (6, 8), (7, 9), (10, 12), (11, 13), (14, 16),
  (15, 17), (18, 20), (19, 21), (22, 24), (23, 25), (26, 28), (27, 29), (30, 32), (31, 33),
  (34, 36), (35, 37), (38, 40), (39, 41), (42, 44), (43, 45), (46, 48), (47, 49), (5, 6),
  (7, 8), (9, 10), (11, 12), (13, 14), (15, 16), (17, 18), (19, 20), (21, 22), (23, 24),
  (25, 26), (27, 28), (29, 30), (31, 32), (33, 34), (35, 36), (37, 38), (39, 40), (41, 42),
  (43, 44), (45, 46), (47, 48), (49, 50)]

end CppSort
