set_option autoImplicit false
/-
Sorting networks for 57 to 64 elements, transcribed from detail/sorting_network/sortN.h.
`netN` is the sequence of compare-exchanges of `operator()`, `netPairsN` the table of `index_pairs()`.
-/
namespace CppSort

/-- detail/sorting_network/sort57.h 27-480. -/
def net57 : List (Nat × Nat) := [
  (0, 8), (1, 7), (2, 6), (3, 11), (4, 10), (5, 9), (12, 24), (13, 22), (14, 21), (15, 19),
  (17, 23), (18, 20), (25, 38), (26, 37), (27, 40), (28, 39), (29, 33), (30, 31), (32, 36),
  (34, 35), (41, 54), (42, 53), (43, 56), (44, 55), (45, 49), (46, 47), (48, 52), (50, 51),
  (0, 1), (2, 5), (3, 4), (6, 9), (7, 8), (10, 11), (13, 18), (14, 15), (16, 23), (19, 21),
  (20, 22), (25, 30), (26, 32), (27, 34), (28, 29), (31, 38), (33, 39), (35, 40), (36, 37),
  (41, 46), (42, 48), (43, 50), (44, 45), (47, 54), (49, 55), (51, 56), (52, 53), (0, 2),
  (1, 6), (5, 10), (9, 11), (12, 16), (13, 14), (15, 18), (19, 20), (21, 22), (23, 24),
  (25, 26), (27, 28), (29, 30), (31, 33), (32, 34), (35, 36), (37, 38), (39, 40), (41, 42),
  (43, 44), (45, 46), (47, 49), (48, 50), (51, 52), (53, 54), (55, 56), (0, 3), (1, 2), (4, 6),
  (5, 7), (8, 11), (9, 10), (16, 18), (17, 21), (20, 23), (22, 24), (25, 27), (26, 28),
  (29, 35), (30, 36), (31, 32), (33, 34), (37, 39), (38, 40), (41, 43), (42, 44), (45, 51),
  (46, 52), (47, 48), (49, 50), (53, 55), (54, 56), (1, 4), (3, 5), (6, 8), (7, 10), (12, 17),
  (15, 20), (16, 19), (18, 23), (21, 22), (26, 27), (28, 37), (29, 31), (30, 32), (33, 35),
  (34, 36), (38, 39), (40, 56), (42, 43), (44, 53), (45, 47), (46, 48), (49, 51), (50, 52),
  (54, 55), (1, 3), (2, 5), (6, 9), (8, 10), (12, 13), (14, 17), (18, 21), (19, 20), (22, 23),
  (26, 29), (27, 31), (30, 33), (32, 35), (34, 38), (36, 39), (42, 45), (43, 47), (46, 49),
  (48, 51), (50, 54), (52, 55), (1, 26), (2, 3), (4, 5), (6, 7), (8, 9), (11, 23), (12, 41),
  (13, 15), (14, 16), (17, 18), (21, 22), (27, 29), (28, 31), (34, 37), (36, 38), (39, 55),
  (43, 45), (44, 47), (50, 53), (52, 54), (2, 27), (4, 6), (5, 7), (10, 22), (12, 25),
  (13, 14), (15, 16), (17, 19), (18, 20), (23, 56), (28, 30), (31, 33), (32, 34), (35, 37),
  (38, 54), (44, 46), (47, 49), (48, 50), (51, 53), (3, 4), (5, 6), (7, 8), (13, 42), (14, 15),
  (16, 17), (18, 19), (20, 21), (22, 55), (28, 29), (30, 31), (32, 33), (34, 35), (36, 37),
  (44, 45), (46, 47), (48, 49), (50, 51), (52, 53), (0, 29), (1, 13), (3, 28), (7, 19),
  (8, 24), (9, 21), (14, 43), (15, 16), (17, 18), (26, 42), (30, 46), (31, 32), (33, 34),
  (35, 51), (36, 52), (37, 53), (47, 48), (49, 50), (2, 14), (4, 33), (5, 17), (6, 18),
  (8, 37), (10, 51), (11, 52), (13, 26), (15, 44), (16, 45), (19, 40), (20, 49), (21, 54),
  (24, 53), (27, 43), (31, 47), (32, 48), (34, 50), (0, 16), (3, 15), (4, 41), (5, 30),
  (6, 31), (7, 32), (9, 50), (10, 35), (11, 36), (14, 27), (17, 38), (18, 39), (20, 25),
  (23, 40), (24, 37), (28, 44), (29, 45), (33, 49), (0, 12), (4, 20), (5, 13), (6, 14),
  (8, 29), (9, 34), (10, 27), (15, 28), (21, 38), (22, 39), (24, 45), (30, 46), (31, 47),
  (32, 48), (33, 41), (35, 43), (36, 44), (37, 49), (40, 52), (4, 12), (7, 15), (9, 26),
  (10, 14), (11, 28), (16, 29), (17, 30), (18, 31), (19, 32), (21, 46), (22, 47), (23, 48),
  (25, 33), (27, 35), (34, 42), (37, 45), (38, 50), (39, 51), (40, 44), (52, 55), (1, 4),
  (8, 16), (9, 13), (11, 15), (18, 27), (20, 25), (21, 30), (22, 31), (23, 32), (24, 29),
  (26, 34), (28, 36), (33, 41), (38, 42), (39, 43), (44, 48), (51, 53), (3, 9), (8, 20),
  (14, 18), (16, 25), (17, 26), (19, 28), (21, 34), (22, 35), (23, 36), (24, 33), (29, 41),
  (30, 38), (31, 39), (32, 40), (42, 46), (43, 47), (48, 54), (53, 55), (8, 12), (13, 17),
  (15, 19), (16, 20), (21, 26), (22, 27), (23, 28), (24, 25), (29, 33), (30, 34), (31, 35),
  (32, 36), (37, 41), (38, 42), (39, 43), (40, 44), (47, 49), (48, 51), (53, 54), (55, 56),
  (2, 8), (6, 12), (7, 13), (10, 16), (11, 17), (14, 20), (15, 21), (18, 24), (19, 26),
  (22, 25), (23, 30), (27, 29), (28, 34), (31, 33), (32, 38), (35, 37), (36, 42), (39, 41),
  (40, 46), (43, 45), (44, 50), (52, 53), (2, 4), (3, 8), (5, 6), (7, 10), (9, 12), (11, 14),
  (13, 16), (15, 20), (17, 18), (19, 21), (22, 24), (23, 27), (25, 26), (28, 31), (29, 30),
  (32, 34), (33, 35), (36, 37), (38, 39), (40, 41), (42, 43), (44, 47), (45, 46), (49, 50),
  (53, 54), (3, 5), (6, 8), (7, 9), (10, 12), (11, 13), (14, 16), (15, 17), (18, 20), (19, 22),
  (21, 24), (23, 25), (26, 27), (28, 29), (30, 31), (32, 33), (34, 35), (36, 38), (37, 39),
  (40, 42), (41, 43), (44, 45), (46, 47), (48, 49), (50, 51), (3, 4), (5, 6), (7, 8), (9, 10),
  (11, 12), (13, 14), (15, 16), (17, 18), (19, 20), (21, 22), (23, 24), (25, 26), (27, 28),
  (29, 30), (31, 32), (33, 34), (35, 36), (37, 38), (39, 40), (41, 42), (43, 44), (45, 46),
  (47, 48), (49, 50), (51, 52)]

/-- detail/sorting_network/sort57.h 488-510. -/
def netPairs57 : List (Nat × Nat) := [
  (0, 8), (1, 7), (2, 6), (3, 11), (4, 10), (5, 9), (12, 24), (13, 22), (14, 21), (15, 19),
  (17, 23), (18, 20), (25, 38), (26, 37), (27, 40), (28, 39), (29, 33), (30, 31), (32, 36),
  (34, 35), (41, 54), (42, 53), (43, 56), (44, 55), (45, 49), (46, 47), (48, 52), (50, 51),
  (0, 1), (2, 5), (3, 4), (6, 9), (7, 8), (10, 11), (13, 18), (14, 15), (16, 23), (19, 21),
  (20, 22), (25, 30), (26, 32), (27, 34), (28, 29), (31, 38), (33, 39), (35, 40), (36, 37),
  (41, 46), (42, 48), (43, 50), (44, 45), (47, 54), (49, 55), (51, 56), (52, 53), (0, 2),
  (1, 6), (5, 10), (9, 11), (12, 16), (13, 14), (15, 18), (19, 20), (21, 22), (23, 24),
  (25, 26), (27, 28), (29, 30), (31, 33), (32, 34), (35, 36), (37, 38), (39, 40), (41, 42),
  (43, 44), (45, 46), (47, 49), (48, 50), (51, 52), (53, 54), (55, 56), (0, 3), (1, 2), (4, 6),
  (5, 7), (8, 11), (9, 10), (16, 18), (17, 21), (20, 23), (22, 24), (25, 27), (26, 28),
  (29, 35), (30, 36), (31, 32), (33, 34), (37, 39), (38, 40), (41, 43), (42, 44), (45, 51),
  (46, 52), (47, 48), (49, 50), (53, 55), (54, 56), (1, 4), (3, 5), (6, 8), (7, 10), (12, 17),
  (15, 20), (16, 19), (18, 23), (21, 22), (26, 27), (28, 37), (29, 31), (30, 32), (33, 35),
  (34, 36), (38, 39), (40, 56), (42, 43), (44, 53), (45, 47), (46, 48), (49, 51), (50, 52),
  (54, 55), (1, 3), (2, 5), (6, 9), (8, 10), (12, 13), (14, 17), (18, 21), (19, 20), (22, 23),
  (26, 29), (27, 31), (30, 33), (32, 35), (34, 38), (36, 39), (42, 45), (43, 47), (46, 49),
  (48, 51), (50, 54), (52, 55), (1, 26), (2, 3), (4, 5), (6, 7), (8, 9), (11, 23), (12, 41),
  (13, 15), (14, 16), (17, 18), (21, 22), (27, 29), (28, 31), (34, 37), (36, 38), (39, 55),
  (43, 45), (44, 47), (50, 53), (52, 54), (2, 27), (4, 6), (5, 7), (10, 22), (12, 25),
  (13, 14), (15, 16), (17, 19), (18, 20), (23, 56), (28, 30), (31, 33), (32, 34), (35, 37),
  (38, 54), (44, 46), (47, 49), (48, 50), (51, 53), (3, 4), (5, 6), (7, 8), (13, 42), (14, 15),
  (16, 17), (18, 19), (20, 21), (22, 55), (28, 29), (30, 31), (32, 33), (34, 35), (36, 37),
  (44, 45), (46, 47), (48, 49), (50, 51), (52, 53), (0, 29), (1, 13), (3, 28), (7, 19),
  (8, 24), (9, 21), (14, 43), (15, 16), (17, 18), (26, 42), (30, 46), (31, 32), (33, 34),
  (35, 51), (36, 52), (37, 53), (47, 48), (49, 50), (2, 14), (4, 33), (5, 17), (6, 18),
  (8, 37), (10, 51), (11, 52), (13, 26), (15, 44), (16, 45), (19, 40), (20, 49), (21, 54),
  (24, 53), (27, 43), (31, 47), (32, 48), (34, 50), (0, 16), (3, 15), (4, 41), (5, 30),
  (6, 31), (7, 32), (9, 50), (10, 35), (11, 36), (14, 27), (17, 38), (18, 39), (20, 25),
  (23, 40), (24, 37), (28, 44), (29, 45), (33, 49), (0, 12), (4, 20), (5, 13), (6, 14),
  (8, 29), (9, 34), (10, 27), (15, 28), (21, 38), (22, 39), (24, 45), (30, 46), (31, 47),
  (32, 48), (33, 41), (35, 43), (36, 44), (37, 49), (40, 52), (4, 12), (7, 15), (9, 26),
  (10, 14), (11, 28), (16, 29), (17, 30), (18, 31), (19, 32), (21, 46), (22, 47), (23, 48),
  (25, 33), (27, 35), (34, 42), (37, 45), (38, 50), (39, 51), (40, 44), (52, 55), (1, 4),
  (8, 16), (9, 13), (11, 15), (18, 27), (20, 25), (21, 30), (22, 31), (23, 32), (24, 29),
  (26, 34), (28, 36), (33, 41), (38, 42), (39, 43), (44, 48), (51, 53), (3, 9), (8, 20),
  (14, 18), (16, 25), (17, 26), (19, 28), (21, 34), (22, 35), (23, 36), (24, 33), (29, 41),
  (30, 38), (31, 39), (32, 40), (42, 46), (43, 47), (48, 54), (53, 55), (8, 12), (13, 17),
  (15, 19), (16, 20), (21, 26), (22, 27), (23, 28), (24, 25), (29, 33), (30, 34), (31, 35),
  (32, 36), (37, 41), (38, 42), (39, 43), (40, 44), (47, 49), (48, 51), (53, 54), (55, 56),
  (2, 8), (6, 12), (7, 13), (10, 16), (11, 17), (14, 20), (15, 21), (18, 24), (19, 26),
  (22, 25), (23, 30), (27, 29), (28, 34), (31, 33), (32, 38), (35, 37), (36, 42), (39, 41),
  (40, 46), (43, 45), (44, 50), (52, 53), (2, 4), (3, 8), (5, 6), (7, 10), (9, 12), (11, 14),
  (13, 16), (15, 20), (17, 18), (19, 21), (22, 24), (23, 27), (25, 26), (28, 31), (29, 30),
  (32, 34), (33, 35), (36, 37), (38, 39), (40, 41), (42, 43), (44, 47), (45, 46), (49, 50),
  (53, 54), (3, 5), (6, 8), (7, 9), (10, 12), (11, 13), (14, 16), (15, 17), (18, 20), (19, 22),
  (21, 24), (23, 25), (26, 27), (28, 29), (30, 31), (32, 33), (34, 35), (36, 38), (37, 39),
  (40, 42), (41, 43), (44, 45), (46, 47), (48, 49), (50, 51), (3, 4), (5, 6), (7, 8), (9, 10),
  (11, 12), (13, 14), (15, 16), (17, 18), (19, 20), (21, 22), (23, 24), (25, 26), (27, 28),
  (29, 30), (31, 32), (33, 34), (35, 36), (37, 38), (39, 40), (41, 42), (43, 44), (45, 46),
  (47, 48), (49, 50), (51, 52)]

/-- detail/sorting_network/sort58.h 27-491. -/
def net58 : List (Nat × Nat) := [
  (0, 8), (1, 9), (2, 7), (3, 5), (4, 6), (10, 23), (11, 22), (12, 25), (13, 24), (14, 18),
  (15, 16), (17, 21), (19, 20), (26, 39), (27, 38), (28, 41), (29, 40), (30, 34), (31, 32),
  (33, 37), (35, 36), (42, 55), (43, 54), (44, 57), (45, 56), (46, 50), (47, 48), (49, 53),
  (51, 52), (0, 2), (1, 4), (5, 8), (7, 9), (10, 15), (11, 17), (12, 19), (13, 14), (16, 23),
  (18, 24), (20, 25), (21, 22), (26, 31), (27, 33), (28, 35), (29, 30), (32, 39), (34, 40),
  (36, 41), (37, 38), (42, 47), (43, 49), (44, 51), (45, 46), (48, 55), (50, 56), (52, 57),
  (53, 54), (0, 3), (2, 4), (5, 7), (6, 9), (10, 11), (12, 13), (14, 15), (16, 18), (17, 19),
  (20, 21), (22, 23), (24, 25), (26, 27), (28, 29), (30, 31), (32, 34), (33, 35), (36, 37),
  (38, 39), (40, 41), (42, 43), (44, 45), (46, 47), (48, 50), (49, 51), (52, 53), (54, 55),
  (56, 57), (0, 1), (3, 6), (8, 9), (10, 12), (11, 13), (14, 20), (15, 21), (16, 17), (18, 19),
  (22, 24), (23, 25), (26, 28), (27, 29), (30, 36), (31, 37), (32, 33), (34, 35), (38, 40),
  (39, 41), (42, 44), (43, 45), (46, 52), (47, 53), (48, 49), (50, 51), (54, 56), (55, 57),
  (1, 5), (2, 3), (4, 8), (6, 7), (10, 42), (11, 12), (13, 22), (14, 16), (15, 17), (18, 20),
  (19, 21), (23, 24), (25, 41), (27, 28), (29, 38), (30, 32), (31, 33), (34, 36), (35, 37),
  (39, 40), (43, 44), (45, 54), (46, 48), (47, 49), (50, 52), (51, 53), (55, 56), (1, 2),
  (3, 5), (4, 6), (7, 8), (10, 26), (11, 14), (12, 16), (15, 18), (17, 20), (19, 23), (21, 24),
  (27, 30), (28, 32), (31, 34), (33, 36), (35, 39), (37, 40), (43, 46), (44, 48), (47, 50),
  (49, 52), (51, 55), (53, 56), (2, 3), (4, 5), (6, 7), (11, 43), (12, 14), (13, 16), (19, 22),
  (21, 23), (24, 40), (28, 30), (29, 32), (35, 38), (37, 39), (44, 46), (45, 48), (51, 54),
  (53, 55), (2, 12), (3, 4), (5, 6), (7, 57), (9, 23), (11, 27), (13, 15), (16, 18), (17, 19),
  (20, 22), (28, 44), (29, 31), (32, 34), (33, 35), (36, 38), (39, 55), (45, 47), (48, 50),
  (49, 51), (52, 54), (2, 28), (6, 56), (7, 25), (9, 39), (13, 14), (15, 16), (17, 18),
  (19, 20), (21, 22), (23, 55), (29, 30), (31, 32), (33, 34), (35, 36), (37, 38), (41, 57),
  (45, 46), (47, 48), (49, 50), (51, 52), (53, 54), (0, 30), (1, 31), (3, 13), (6, 24),
  (8, 22), (12, 20), (14, 46), (15, 47), (16, 17), (18, 19), (23, 39), (25, 41), (29, 45),
  (32, 33), (34, 35), (36, 52), (37, 53), (38, 54), (40, 56), (48, 49), (50, 51), (55, 57),
  (0, 14), (1, 15), (3, 29), (4, 34), (5, 35), (6, 16), (7, 17), (8, 38), (12, 44), (13, 21),
  (18, 50), (19, 51), (20, 52), (22, 54), (24, 40), (30, 46), (31, 47), (32, 48), (33, 49),
  (0, 10), (1, 11), (4, 42), (5, 43), (6, 32), (7, 33), (8, 30), (9, 31), (12, 28), (13, 45),
  (16, 48), (17, 49), (18, 26), (19, 27), (20, 36), (21, 53), (22, 38), (23, 47), (34, 50),
  (35, 51), (40, 52), (4, 18), (5, 19), (6, 12), (13, 29), (14, 30), (15, 31), (16, 32),
  (17, 33), (20, 28), (21, 37), (22, 46), (24, 48), (25, 49), (34, 42), (35, 43), (36, 44),
  (38, 50), (39, 51), (41, 53), (52, 54), (4, 10), (5, 11), (7, 13), (8, 14), (9, 15),
  (12, 20), (21, 29), (22, 30), (23, 31), (24, 32), (25, 33), (26, 34), (27, 35), (28, 36),
  (37, 45), (38, 46), (39, 47), (40, 48), (41, 49), (53, 56), (1, 4), (13, 21), (16, 28),
  (18, 26), (19, 27), (24, 36), (29, 37), (32, 44), (33, 45), (34, 42), (35, 43), (48, 50),
  (49, 51), (8, 18), (9, 19), (14, 26), (15, 27), (16, 20), (17, 29), (22, 34), (23, 35),
  (24, 28), (25, 37), (30, 42), (31, 43), (32, 36), (40, 44), (41, 45), (49, 52), (51, 54),
  (8, 10), (9, 11), (14, 18), (15, 19), (17, 21), (22, 26), (23, 27), (25, 29), (30, 34),
  (31, 35), (33, 37), (38, 42), (39, 43), (44, 46), (45, 47), (54, 55), (2, 8), (3, 9),
  (6, 10), (7, 11), (12, 14), (13, 15), (16, 18), (17, 19), (20, 22), (21, 23), (24, 26),
  (25, 27), (28, 30), (29, 31), (32, 34), (33, 35), (36, 38), (37, 39), (40, 42), (41, 43),
  (45, 46), (47, 50), (53, 54), (55, 56), (2, 4), (3, 8), (5, 6), (7, 12), (9, 10), (11, 14),
  (13, 16), (15, 20), (17, 18), (19, 24), (21, 22), (23, 28), (25, 26), (27, 29), (30, 32),
  (31, 34), (33, 36), (35, 38), (37, 40), (39, 42), (41, 44), (43, 48), (49, 50), (51, 53),
  (54, 55), (3, 5), (6, 8), (7, 9), (10, 12), (11, 13), (14, 16), (15, 17), (18, 20), (19, 21),
  (22, 24), (23, 25), (26, 28), (27, 30), (29, 32), (31, 33), (34, 36), (35, 37), (38, 40),
  (39, 41), (42, 44), (43, 45), (46, 48), (47, 49), (50, 52), (3, 4), (5, 6), (7, 8), (9, 10),
  (11, 12), (13, 14), (15, 16), (17, 18), (19, 20), (21, 22), (23, 24), (25, 26), (27, 28),
  (29, 30), (31, 32), (33, 34), (35, 36), (37, 38), (39, 40), (41, 42), (43, 44), (45, 46),
  (47, 48), (51, 52)]

/-- detail/sorting_network/sort58.h 499-521. -/
def netPairs58 : List (Nat × Nat) := [
  (0, 8), (1, 9), (2, 7), (3, 5), (4, 6), (10, 23), (11, 22), (12, 25), (13, 24), (14, 18),
  (15, 16), (17, 21), (19, 20), (26, 39), (27, 38), (28, 41), (29, 40), (30, 34), (31, 32),
  (33, 37), (35, 36), (42, 55), (43, 54), (44, 57), (45, 56), (46, 50), (47, 48), (49, 53),
  (51, 52), (0, 2), (1, 4), (5, 8), (7, 9), (10, 15), (11, 17), (12, 19), (13, 14), (16, 23),
  (18, 24), (20, 25), (21, 22), (26, 31), (27, 33), (28, 35), (29, 30), (32, 39), (34, 40),
  (36, 41), (37, 38), (42, 47), (43, 49), (44, 51), (45, 46), (48, 55), (50, 56), (52, 57),
  (53, 54), (0, 3), (2, 4), (5, 7), (6, 9), (10, 11), (12, 13), (14, 15), (16, 18), (17, 19),
  (20, 21), (22, 23), (24, 25), (26, 27), (28, 29), (30, 31), (32, 34), (33, 35), (36, 37),
  (38, 39), (40, 41), (42, 43), (44, 45), (46, 47), (48, 50), (49, 51), (52, 53), (54, 55),
  (56, 57), (0, 1), (3, 6), (8, 9), (10, 12), (11, 13), (14, 20), (15, 21), (16, 17), (18, 19),
  (22, 24), (23, 25), (26, 28), (27, 29), (30, 36), (31, 37), (32, 33), (34, 35), (38, 40),
  (39, 41), (42, 44), (43, 45), (46, 52), (47, 53), (48, 49), (50, 51), (54, 56), (55, 57),
  (1, 5), (2, 3), (4, 8), (6, 7), (10, 42), (11, 12), (13, 22), (14, 16), (15, 17), (18, 20),
  (19, 21), (23, 24), (25, 41), (27, 28), (29, 38), (30, 32), (31, 33), (34, 36), (35, 37),
  (39, 40), (43, 44), (45, 54), (46, 48), (47, 49), (50, 52), (51, 53), (55, 56), (1, 2),
  (3, 5), (4, 6), (7, 8), (10, 26), (11, 14), (12, 16), (15, 18), (17, 20), (19, 23), (21, 24),
  (27, 30), (28, 32), (31, 34), (33, 36), (35, 39), (37, 40), (43, 46), (44, 48), (47, 50),
  (49, 52), (51, 55), (53, 56), (2, 3), (4, 5), (6, 7), (11, 43), (12, 14), (13, 16), (19, 22),
  (21, 23), (24, 40), (28, 30), (29, 32), (35, 38), (37, 39), (44, 46), (45, 48), (51, 54),
  (53, 55), (2, 12), (3, 4), (5, 6), (7, 57), (9, 23), (11, 27), (13, 15), (16, 18), (17, 19),
  (20, 22), (28, 44), (29, 31), (32, 34), (33, 35), (36, 38), (39, 55), (45, 47), (48, 50),
  (49, 51), (52, 54), (2, 28), (6, 56), (7, 25), (9, 39), (13, 14), (15, 16), (17, 18),
  (19, 20), (21, 22), (23, 55), (29, 30), (31, 32), (33, 34), (35, 36), (37, 38), (41, 57),
  (45, 46), (47, 48), (49, 50), (51, 52), (53, 54), (0, 30), (1, 31), (3, 13), (6, 24),
  (8, 22), (12, 20), (14, 46), (15, 47), (16, 17), (18, 19), (23, 39), (25, 41), (29, 45),
  (32, 33), (34, 35), (36, 52), (37, 53), (38, 54), (40, 56), (48, 49), (50, 51), (55, 57),
  (0, 14), (1, 15), (3, 29), (4, 34), (5, 35), (6, 16), (7, 17), (8, 38), (12, 44), (13, 21),
  (18, 50), (19, 51), (20, 52), (22, 54), (24, 40), (30, 46), (31, 47), (32, 48), (33, 49),
  (0, 10), (1, 11), (4, 42), (5, 43), (6, 32), (7, 33), (8, 30), (9, 31), (12, 28), (13, 45),
  (16, 48), (17, 49), (18, 26), (19, 27), (20, 36), (21, 53), (22, 38), (23, 47), (34, 50),
  (35, 51), (40, 52), (4, 18), (5, 19), (6, 12), (13, 29), (14, 30), (15, 31), (16, 32),
  (17, 33), (20, 28), (21, 37), (22, 46), (24, 48), (25, 49), (34, 42), (35, 43), (36, 44),
  (38, 50), (39, 51), (41, 53), (52, 54), (4, 10), (5, 11), (7, 13), (8, 14), (9, 15),
  (12, 20), (21, 29), (22, 30), (23, 31), (24, 32), (25, 33), (26, 34), (27, 35), (28, 36),
  (37, 45), (38, 46), (39, 47), (40, 48), (41, 49), (53, 56), (1, 4), (13, 21), (16, 28),
  (18, 26), (19, 27), (24, 36), (29, 37), (32, 44), (33, 45), (34, 42), (35, 43), (48, 50),
  (49, 51), (8, 18), (9, 19), (14, 26), (15, 27), (16, 20), (17, 29), (22, 34), (23, 35),
  (24, 28), (25, 37), (30, 42), (31, 43), (32, 36), (40, 44), (41, 45), (49, 52), (51, 54),
  (8, 10), (9, 11), (14, 18), (15, 19), (17, 21), (22, 26), (23, 27), (25, 29), (30, 34),
  (31, 35), (33, 37), (38, 42), (39, 43), (44, 46), (45, 47), (54, 55), (2, 8), (3, 9),
  (6, 10), (7, 11), (12, 14), (13, 15), (16, 18), (17, 19), (20, 22), (21, 23), (24, 26),
  (25, 27), (28, 30), (29, 31), (32, 34), (33, 35), (36, 38), (37, 39), (40, 42), (41, 43),
  (45, 46), (47, 50), (53, 54), (55, 56), (2, 4), (3, 8), (5, 6), (7, 12), (9, 10), (11, 14),
  (13, 16), (15, 20), (17, 18), (19, 24), (21, 22), (23, 28), (25, 26), (27, 29), (30, 32),
  (31, 34), (33, 36), (35, 38), (37, 40), (39, 42), (41, 44), (43, 48), (49, 50), (51, 53),
  (54, 55), (3, 5), (6, 8), (7, 9), (10, 12), (11, 13), (14, 16), (15, 17), (18, 20), (19, 21),
  (22, 24), (23, 25), (26, 28), (27, 30), (29, 32), (31, 33), (34, 36), (35, 37), (38, 40),
  (39, 41), (42, 44), (43, 45), (46, 48), (47, 49), (50, 52), (3, 4), (5, 6), (7, 8), (9, 10),
  (11, 12), (13, 14), (15, 16), (17, 18), (19, 20), (21, 22), (23, 24), (25, 26), (27, 28),
  (29, 30), (31, 32), (33, 34), (35, 36), (37, 38), (39, 40), (41, 42), (43, 44), (45, 46),
  (47, 48), (51, 52)]

/-- detail/sorting_network/sort59.h 27-502. -/
def net59 : List (Nat × Nat) := [
  (0, 9), (1, 6), (2, 4), (3, 7), (5, 8), (11, 24), (12, 23), (13, 26), (14, 25), (15, 19),
  (16, 17), (18, 22), (20, 21), (27, 40), (28, 39), (29, 42), (30, 41), (31, 35), (32, 33),
  (34, 38), (36, 37), (43, 56), (44, 55), (45, 58), (46, 57), (47, 51), (48, 49), (50, 54),
  (52, 53), (0, 1), (3, 5), (4, 10), (6, 9), (7, 8), (11, 16), (12, 18), (13, 20), (14, 15),
  (17, 24), (19, 25), (21, 26), (22, 23), (27, 32), (28, 34), (29, 36), (30, 31), (33, 40),
  (35, 41), (37, 42), (38, 39), (43, 48), (44, 50), (45, 52), (46, 47), (49, 56), (51, 57),
  (53, 58), (54, 55), (1, 3), (2, 5), (4, 7), (8, 10), (11, 12), (13, 14), (15, 16), (17, 19),
  (18, 20), (21, 22), (23, 24), (25, 26), (27, 28), (29, 30), (31, 32), (33, 35), (34, 36),
  (37, 38), (39, 40), (41, 42), (43, 44), (45, 46), (47, 48), (49, 51), (50, 52), (53, 54),
  (55, 56), (57, 58), (0, 4), (1, 2), (3, 7), (5, 9), (6, 8), (11, 13), (12, 14), (15, 21),
  (16, 22), (17, 18), (19, 20), (23, 25), (24, 26), (27, 29), (28, 30), (31, 37), (32, 38),
  (33, 34), (35, 36), (39, 41), (40, 42), (43, 45), (44, 46), (47, 53), (48, 54), (49, 50),
  (51, 52), (55, 57), (56, 58), (0, 1), (2, 6), (4, 5), (7, 8), (9, 10), (11, 43), (12, 13),
  (14, 23), (15, 17), (16, 18), (19, 21), (20, 22), (24, 25), (26, 42), (28, 29), (30, 39),
  (31, 33), (32, 34), (35, 37), (36, 38), (40, 41), (44, 45), (46, 55), (47, 49), (48, 50),
  (51, 53), (52, 54), (56, 57), (2, 4), (3, 6), (5, 7), (8, 9), (11, 27), (12, 15), (13, 17),
  (16, 19), (18, 21), (20, 24), (22, 25), (28, 31), (29, 33), (32, 35), (34, 37), (36, 40),
  (38, 41), (44, 47), (45, 49), (48, 51), (50, 53), (52, 56), (54, 57), (1, 2), (3, 4), (5, 6),
  (7, 8), (10, 25), (12, 44), (13, 15), (14, 17), (20, 23), (22, 24), (29, 31), (30, 33),
  (36, 39), (38, 40), (41, 57), (45, 47), (46, 49), (52, 55), (54, 56), (2, 3), (4, 5), (6, 7),
  (9, 24), (10, 41), (12, 28), (13, 45), (14, 16), (17, 19), (18, 20), (21, 23), (25, 57),
  (30, 32), (33, 35), (34, 36), (37, 39), (40, 56), (46, 48), (49, 51), (50, 52), (53, 55),
  (7, 58), (9, 40), (13, 29), (14, 15), (16, 17), (18, 19), (20, 21), (22, 23), (24, 56),
  (25, 41), (30, 31), (32, 33), (34, 35), (36, 37), (38, 39), (46, 47), (48, 49), (50, 51),
  (52, 53), (54, 55), (0, 31), (1, 32), (3, 14), (6, 37), (7, 26), (8, 23), (15, 47), (16, 48),
  (17, 18), (19, 20), (21, 53), (24, 40), (30, 46), (33, 34), (35, 36), (38, 54), (39, 55),
  (42, 58), (49, 50), (51, 52), (0, 15), (1, 16), (2, 33), (3, 30), (4, 35), (5, 36), (6, 45),
  (7, 18), (8, 39), (14, 22), (17, 49), (19, 51), (20, 52), (21, 29), (23, 55), (26, 42),
  (31, 47), (32, 48), (34, 50), (37, 53), (57, 58), (0, 11), (1, 12), (2, 17), (4, 43),
  (5, 44), (6, 21), (7, 34), (8, 31), (9, 32), (14, 46), (18, 50), (19, 27), (20, 28),
  (22, 54), (23, 39), (24, 48), (33, 49), (35, 51), (36, 52), (37, 45), (41, 53), (2, 13),
  (4, 19), (5, 20), (10, 33), (14, 30), (15, 31), (16, 32), (18, 34), (22, 38), (23, 47),
  (25, 49), (26, 50), (29, 37), (35, 43), (36, 44), (39, 51), (40, 52), (42, 54), (4, 11),
  (5, 12), (6, 13), (7, 14), (8, 15), (9, 16), (17, 33), (21, 29), (22, 30), (23, 31),
  (24, 32), (26, 34), (27, 35), (28, 36), (37, 45), (38, 46), (39, 47), (40, 48), (41, 49),
  (42, 50), (54, 56), (1, 4), (10, 17), (14, 22), (19, 27), (20, 28), (25, 33), (30, 38),
  (34, 46), (35, 43), (36, 44), (49, 55), (50, 53), (56, 57), (8, 19), (9, 20), (10, 21),
  (15, 27), (16, 28), (17, 29), (18, 30), (23, 35), (24, 36), (25, 37), (26, 38), (31, 43),
  (32, 44), (33, 45), (42, 46), (50, 52), (54, 55), (8, 11), (9, 12), (10, 13), (15, 19),
  (16, 20), (17, 21), (18, 22), (23, 27), (24, 28), (25, 29), (26, 30), (31, 35), (32, 36),
  (33, 37), (34, 38), (39, 43), (40, 44), (41, 45), (46, 48), (52, 54), (53, 55), (2, 8),
  (3, 9), (6, 11), (7, 12), (10, 15), (13, 19), (14, 16), (17, 23), (18, 20), (21, 27),
  (22, 24), (25, 31), (26, 28), (29, 35), (30, 32), (33, 39), (34, 36), (37, 43), (38, 40),
  (41, 47), (42, 44), (45, 51), (48, 50), (53, 54), (55, 56), (2, 4), (3, 5), (6, 8), (7, 9),
  (10, 11), (12, 13), (14, 15), (16, 19), (17, 18), (20, 22), (21, 23), (24, 27), (25, 26),
  (28, 31), (29, 30), (32, 35), (33, 34), (36, 39), (37, 38), (40, 42), (41, 43), (44, 45),
  (46, 47), (49, 51), (3, 6), (5, 8), (7, 10), (9, 11), (12, 14), (13, 15), (16, 17), (18, 19),
  (20, 21), (22, 23), (24, 25), (26, 27), (28, 29), (30, 31), (32, 33), (34, 35), (36, 37),
  (38, 39), (40, 41), (42, 43), (44, 46), (45, 47), (48, 49), (50, 51), (3, 4), (5, 6), (7, 8),
  (9, 10), (11, 12), (13, 14), (15, 16), (17, 18), (19, 20), (21, 22), (23, 24), (25, 26),
  (27, 28), (29, 30), (31, 32), (33, 34), (35, 36), (37, 38), (39, 40), (41, 42), (43, 44),
  (45, 46), (47, 48), (49, 50), (51, 52)]

/-- detail/sorting_network/sort59.h 510-532. -/
def netPairs59 : List (Nat × Nat) := [
  (0, 9), (1, 6), (2, 4), (3, 7), (5, 8), (11, 24), (12, 23), (13, 26), (14, 25), (15, 19),
  (16, 17), (18, 22), (20, 21), (27, 40), (28, 39), (29, 42), (30, 41), (31, 35), (32, 33),
  (34, 38), (36, 37), (43, 56), (44, 55), (45, 58), (46, 57), (47, 51), (48, 49), (50, 54),
  (52, 53), (0, 1), (3, 5), (4, 10), (6, 9), (7, 8), (11, 16), (12, 18), (13, 20), (14, 15),
  (17, 24), (19, 25), (21, 26), (22, 23), (27, 32), (28, 34), (29, 36), (30, 31), (33, 40),
  (35, 41), (37, 42), (38, 39), (43, 48), (44, 50), (45, 52), (46, 47), (49, 56), (51, 57),
  (53, 58), (54, 55), (1, 3), (2, 5), (4, 7), (8, 10), (11, 12), (13, 14), (15, 16), (17, 19),
  (18, 20), (21, 22), (23, 24), (25, 26), (27, 28), (29, 30), (31, 32), (33, 35), (34, 36),
  (37, 38), (39, 40), (41, 42), (43, 44), (45, 46), (47, 48), (49, 51), (50, 52), (53, 54),
  (55, 56), (57, 58), (0, 4), (1, 2), (3, 7), (5, 9), (6, 8), (11, 13), (12, 14), (15, 21),
  (16, 22), (17, 18), (19, 20), (23, 25), (24, 26), (27, 29), (28, 30), (31, 37), (32, 38),
  (33, 34), (35, 36), (39, 41), (40, 42), (43, 45), (44, 46), (47, 53), (48, 54), (49, 50),
  (51, 52), (55, 57), (56, 58), (0, 1), (2, 6), (4, 5), (7, 8), (9, 10), (11, 43), (12, 13),
  (14, 23), (15, 17), (16, 18), (19, 21), (20, 22), (24, 25), (26, 42), (28, 29), (30, 39),
  (31, 33), (32, 34), (35, 37), (36, 38), (40, 41), (44, 45), (46, 55), (47, 49), (48, 50),
  (51, 53), (52, 54), (56, 57), (2, 4), (3, 6), (5, 7), (8, 9), (11, 27), (12, 15), (13, 17),
  (16, 19), (18, 21), (20, 24), (22, 25), (28, 31), (29, 33), (32, 35), (34, 37), (36, 40),
  (38, 41), (44, 47), (45, 49), (48, 51), (50, 53), (52, 56), (54, 57), (1, 2), (3, 4), (5, 6),
  (7, 8), (10, 25), (12, 44), (13, 15), (14, 17), (20, 23), (22, 24), (29, 31), (30, 33),
  (36, 39), (38, 40), (41, 57), (45, 47), (46, 49), (52, 55), (54, 56), (2, 3), (4, 5), (6, 7),
  (9, 24), (10, 41), (12, 28), (13, 45), (14, 16), (17, 19), (18, 20), (21, 23), (25, 57),
  (30, 32), (33, 35), (34, 36), (37, 39), (40, 56), (46, 48), (49, 51), (50, 52), (53, 55),
  (7, 58), (9, 40), (13, 29), (14, 15), (16, 17), (18, 19), (20, 21), (22, 23), (24, 56),
  (25, 41), (30, 31), (32, 33), (34, 35), (36, 37), (38, 39), (46, 47), (48, 49), (50, 51),
  (52, 53), (54, 55), (0, 31), (1, 32), (3, 14), (6, 37), (7, 26), (8, 23), (15, 47), (16, 48),
  (17, 18), (19, 20), (21, 53), (24, 40), (30, 46), (33, 34), (35, 36), (38, 54), (39, 55),
  (42, 58), (49, 50), (51, 52), (0, 15), (1, 16), (2, 33), (3, 30), (4, 35), (5, 36), (6, 45),
  (7, 18), (8, 39), (14, 22), (17, 49), (19, 51), (20, 52), (21, 29), (23, 55), (26, 42),
  (31, 47), (32, 48), (34, 50), (37, 53), (57, 58), (0, 11), (1, 12), (2, 17), (4, 43),
  (5, 44), (6, 21), (7, 34), (8, 31), (9, 32), (14, 46), (18, 50), (19, 27), (20, 28),
  (22, 54), (23, 39), (24, 48), (33, 49), (35, 51), (36, 52), (37, 45), (41, 53), (2, 13),
  (4, 19), (5, 20), (10, 33), (14, 30), (15, 31), (16, 32), (18, 34), (22, 38), (23, 47),
  (25, 49), (26, 50), (29, 37), (35, 43), (36, 44), (39, 51), (40, 52), (42, 54), (4, 11),
  (5, 12), (6, 13), (7, 14), (8, 15), (9, 16), (17, 33), (21, 29), (22, 30), (23, 31),
  (24, 32), (26, 34), (27, 35), (28, 36), (37, 45), (38, 46), (39, 47), (40, 48), (41, 49),
  (42, 50), (54, 56), (1, 4), (10, 17), (14, 22), (19, 27), (20, 28), (25, 33), (30, 38),
  (34, 46), (35, 43), (36, 44), (49, 55), (50, 53), (56, 57), (8, 19), (9, 20), (10, 21),
  (15, 27), (16, 28), (17, 29), (18, 30), (23, 35), (24, 36), (25, 37), (26, 38), (31, 43),
  (32, 44), (33, 45), (42, 46), (50, 52), (54, 55), (8, 11), (9, 12), (10, 13), (15, 19),
  (16, 20), (17, 21), (18, 22), (23, 27), (24, 28), (25, 29), (26, 30), (31, 35), (32, 36),
  (33, 37), (34, 38), (39, 43), (40, 44), (41, 45), (46, 48), (52, 54), (53, 55), (2, 8),
  (3, 9), (6, 11), (7, 12), (10, 15), (13, 19), (14, 16), (17, 23), (18, 20), (21, 27),
  (22, 24), (25, 31), (26, 28), (29, 35), (30, 32), (33, 39), (34, 36), (37, 43), (38, 40),
  (41, 47), (42, 44), (45, 51), (48, 50), (53, 54), (55, 56), (2, 4), (3, 5), (6, 8), (7, 9),
  (10, 11), (12, 13), (14, 15), (16, 19), (17, 18), (20, 22), (21, 23), (24, 27), (25, 26),
  (28, 31), (29, 30), (32, 35), (33, 34), (36, 39), (37, 38), (40, 42), (41, 43), (44, 45),
  (46, 47), (49, 51), (3, 6), (5, 8), (7, 10), (9, 11), (12, 14), (13, 15), (16, 17), (18, 19),
  (20, 21), (22, 23), (24, 25), (26, 27), (28, 29), (30, 31), (32, 33), (34, 35), (36, 37),
  (38, 39), (40, 41), (42, 43), (44, 46), (45, 47), (48, 49), (50, 51), (3, 4), (5, 6), (7, 8),
  (9, 10), (11, 12), (13, 14), (15, 16), (17, 18), (19, 20), (21, 22), (23, 24), (25, 26),
  (27, 28), (29, 30), (31, 32), (33, 34), (35, 36), (37, 38), (39, 40), (41, 42), (43, 44),
  (45, 46), (47, 48), (49, 50), (51, 52)]

/-- detail/sorting_network/sort60.h 27-509. -/
def net60 : List (Nat × Nat) := [
  (1, 2), (3, 10), (4, 14), (5, 8), (6, 13), (7, 12), (9, 11), (16, 17), (18, 25), (19, 29),
  (20, 23), (21, 28), (22, 27), (24, 26), (31, 32), (33, 40), (34, 44), (35, 38), (36, 43),
  (37, 42), (39, 41), (46, 47), (48, 55), (49, 59), (50, 53), (51, 58), (52, 57), (54, 56),
  (0, 14), (1, 5), (2, 8), (3, 7), (6, 9), (10, 12), (11, 13), (15, 29), (16, 20), (17, 23),
  (18, 22), (21, 24), (25, 27), (26, 28), (30, 44), (31, 35), (32, 38), (33, 37), (36, 39),
  (40, 42), (41, 43), (45, 59), (46, 50), (47, 53), (48, 52), (51, 54), (55, 57), (56, 58),
  (0, 7), (1, 6), (2, 9), (4, 10), (5, 11), (8, 13), (12, 14), (15, 22), (16, 21), (17, 24),
  (19, 25), (20, 26), (23, 28), (27, 29), (30, 37), (31, 36), (32, 39), (34, 40), (35, 41),
  (38, 43), (42, 44), (45, 52), (46, 51), (47, 54), (49, 55), (50, 56), (53, 58), (57, 59),
  (0, 6), (2, 4), (3, 5), (7, 11), (8, 10), (9, 12), (13, 14), (15, 21), (17, 19), (18, 20),
  (22, 26), (23, 25), (24, 27), (28, 29), (30, 36), (32, 34), (33, 35), (37, 41), (38, 40),
  (39, 42), (43, 44), (45, 51), (47, 49), (48, 50), (52, 56), (53, 55), (54, 57), (58, 59),
  (0, 3), (1, 2), (4, 7), (5, 9), (6, 8), (10, 11), (12, 13), (14, 59), (15, 18), (16, 17),
  (19, 22), (20, 24), (21, 23), (25, 26), (27, 28), (29, 44), (30, 33), (31, 32), (34, 37),
  (35, 39), (36, 38), (40, 41), (42, 43), (45, 48), (46, 47), (49, 52), (50, 54), (51, 53),
  (55, 56), (57, 58), (0, 1), (2, 3), (4, 6), (7, 9), (10, 12), (11, 13), (14, 29), (15, 16),
  (17, 18), (19, 21), (22, 24), (25, 27), (26, 28), (30, 31), (32, 33), (34, 36), (37, 39),
  (40, 42), (41, 43), (44, 59), (45, 46), (47, 48), (49, 51), (52, 54), (55, 57), (56, 58),
  (0, 30), (1, 2), (3, 5), (8, 10), (11, 12), (13, 58), (15, 45), (16, 17), (18, 20), (23, 25),
  (26, 27), (28, 43), (29, 44), (31, 32), (33, 35), (38, 40), (41, 42), (46, 47), (48, 50),
  (53, 55), (56, 57), (0, 15), (1, 31), (3, 4), (5, 6), (7, 8), (9, 10), (12, 57), (13, 28),
  (16, 46), (18, 19), (20, 21), (22, 23), (24, 25), (27, 42), (30, 45), (33, 34), (35, 36),
  (37, 38), (39, 40), (43, 58), (48, 49), (50, 51), (52, 53), (54, 55), (1, 16), (2, 3),
  (4, 5), (6, 7), (8, 9), (10, 11), (12, 27), (15, 30), (17, 18), (19, 20), (21, 22), (23, 24),
  (25, 26), (28, 43), (31, 46), (32, 33), (34, 35), (36, 37), (38, 39), (40, 41), (42, 57),
  (47, 48), (49, 50), (51, 52), (53, 54), (55, 56), (2, 32), (3, 18), (4, 49), (5, 6), (7, 8),
  (9, 39), (10, 40), (11, 26), (16, 31), (17, 47), (19, 34), (20, 21), (22, 23), (24, 54),
  (25, 55), (27, 42), (33, 48), (35, 36), (37, 38), (41, 56), (50, 51), (52, 53), (2, 17),
  (3, 33), (4, 19), (5, 50), (6, 51), (7, 37), (8, 38), (9, 24), (10, 25), (11, 41), (18, 48),
  (20, 35), (21, 36), (22, 52), (23, 53), (26, 56), (32, 47), (34, 49), (39, 54), (40, 55),
  (4, 15), (5, 20), (6, 21), (7, 22), (8, 23), (9, 31), (11, 48), (12, 19), (17, 32), (18, 33),
  (24, 39), (25, 40), (26, 41), (27, 49), (35, 50), (36, 51), (37, 52), (38, 53), (43, 54),
  (44, 55), (1, 4), (5, 16), (6, 17), (7, 18), (8, 30), (10, 32), (11, 33), (13, 20), (14, 21),
  (19, 34), (22, 37), (23, 38), (24, 46), (25, 47), (26, 48), (28, 50), (29, 51), (41, 52),
  (42, 53), (54, 56), (55, 58), (3, 5), (8, 15), (9, 16), (10, 17), (11, 18), (13, 24),
  (14, 25), (19, 30), (20, 35), (21, 36), (22, 33), (23, 45), (26, 37), (28, 46), (29, 47),
  (34, 38), (41, 48), (42, 49), (43, 50), (44, 51), (2, 8), (5, 9), (12, 23), (18, 22),
  (20, 31), (21, 32), (26, 33), (27, 45), (35, 39), (36, 40), (37, 41), (50, 54), (51, 57),
  (2, 4), (12, 19), (13, 20), (14, 21), (23, 30), (24, 31), (25, 32), (27, 34), (28, 35),
  (29, 36), (38, 45), (39, 46), (40, 47), (55, 57), (12, 15), (13, 16), (14, 17), (19, 23),
  (20, 24), (21, 25), (27, 30), (28, 31), (29, 32), (34, 38), (35, 39), (36, 40), (42, 45),
  (43, 46), (44, 47), (6, 12), (7, 13), (10, 15), (11, 16), (14, 19), (17, 23), (18, 20),
  (21, 27), (22, 24), (25, 30), (26, 28), (29, 34), (31, 33), (32, 38), (35, 37), (36, 42),
  (39, 41), (40, 45), (43, 48), (44, 49), (46, 52), (47, 53), (6, 8), (7, 9), (10, 12),
  (11, 15), (13, 14), (16, 18), (17, 19), (20, 22), (21, 23), (24, 27), (25, 26), (28, 30),
  (29, 31), (32, 34), (33, 35), (36, 37), (38, 39), (40, 42), (41, 43), (44, 48), (45, 46),
  (47, 49), (50, 52), (51, 53), (3, 6), (5, 8), (7, 10), (9, 12), (11, 13), (14, 15), (16, 17),
  (18, 19), (20, 21), (22, 23), (24, 25), (26, 27), (28, 29), (30, 31), (32, 33), (34, 35),
  (36, 38), (37, 39), (40, 41), (42, 43), (44, 45), (46, 48), (47, 50), (49, 52), (51, 54),
  (53, 56), (3, 4), (5, 6), (7, 8), (9, 10), (11, 12), (13, 14), (15, 16), (17, 18), (19, 20),
  (21, 22), (23, 24), (25, 26), (27, 28), (29, 30), (31, 32), (33, 34), (35, 36), (37, 38),
  (39, 40), (41, 42), (43, 44), (45, 46), (47, 48), (49, 50), (51, 52), (53, 54), (55, 56)]

/-- detail/sorting_network/sort60.h 517-539. -/
def netPairs60 : List (Nat × Nat) := [
  (1, 2), (3, 10), (4, 14), (5, 8), (6, 13), (7, 12), (9, 11), (16, 17), (18, 25), (19, 29),
  (20, 23), (21, 28), (22, 27), (24, 26), (31, 32), (33, 40), (34, 44), (35, 38), (36, 43),
  (37, 42), (39, 41), (46, 47), (48, 55), (49, 59), (50, 53), (51, 58), (52, 57), (54, 56),
  (0, 14), (1, 5), (2, 8), (3, 7), (6, 9), (10, 12), (11, 13), (15, 29), (16, 20), (17, 23),
  (18, 22), (21, 24), (25, 27), (26, 28), (30, 44), (31, 35), (32, 38), (33, 37), (36, 39),
  (40, 42), (41, 43), (45, 59), (46, 50), (47, 53), (48, 52), (51, 54), (55, 57), (56, 58),
  (0, 7), (1, 6), (2, 9), (4, 10), (5, 11), (8, 13), (12, 14), (15, 22), (16, 21), (17, 24),
  (19, 25), (20, 26), (23, 28), (27, 29), (30, 37), (31, 36), (32, 39), (34, 40), (35, 41),
  (38, 43), (42, 44), (45, 52), (46, 51), (47, 54), (49, 55), (50, 56), (53, 58), (57, 59),
  (0, 6), (2, 4), (3, 5), (7, 11), (8, 10), (9, 12), (13, 14), (15, 21), (17, 19), (18, 20),
  (22, 26), (23, 25), (24, 27), (28, 29), (30, 36), (32, 34), (33, 35), (37, 41), (38, 40),
  (39, 42), (43, 44), (45, 51), (47, 49), (48, 50), (52, 56), (53, 55), (54, 57), (58, 59),
  (0, 3), (1, 2), (4, 7), (5, 9), (6, 8), (10, 11), (12, 13), (14, 59), (15, 18), (16, 17),
  (19, 22), (20, 24), (21, 23), (25, 26), (27, 28), (29, 44), (30, 33), (31, 32), (34, 37),
  (35, 39), (36, 38), (40, 41), (42, 43), (45, 48), (46, 47), (49, 52), (50, 54), (51, 53),
  (55, 56), (57, 58), (0, 1), (2, 3), (4, 6), (7, 9), (10, 12), (11, 13), (14, 29), (15, 16),
  (17, 18), (19, 21), (22, 24), (25, 27), (26, 28), (30, 31), (32, 33), (34, 36), (37, 39),
  (40, 42), (41, 43), (44, 59), (45, 46), (47, 48), (49, 51), (52, 54), (55, 57), (56, 58),
  (0, 30), (1, 2), (3, 5), (8, 10), (11, 12), (13, 58), (15, 45), (16, 17), (18, 20), (23, 25),
  (26, 27), (28, 43), (29, 44), (31, 32), (33, 35), (38, 40), (41, 42), (46, 47), (48, 50),
  (53, 55), (56, 57), (0, 15), (1, 31), (3, 4), (5, 6), (7, 8), (9, 10), (12, 57), (13, 28),
  (16, 46), (18, 19), (20, 21), (22, 23), (24, 25), (27, 42), (30, 45), (33, 34), (35, 36),
  (37, 38), (39, 40), (43, 58), (48, 49), (50, 51), (52, 53), (54, 55), (1, 16), (2, 3),
  (4, 5), (6, 7), (8, 9), (10, 11), (12, 27), (15, 30), (17, 18), (19, 20), (21, 22), (23, 24),
  (25, 26), (28, 43), (31, 46), (32, 33), (34, 35), (36, 37), (38, 39), (40, 41), (42, 57),
  (47, 48), (49, 50), (51, 52), (53, 54), (55, 56), (2, 32), (3, 18), (4, 49), (5, 6), (7, 8),
  (9, 39), (10, 40), (11, 26), (16, 31), (17, 47), (19, 34), (20, 21), (22, 23), (24, 54),
  (25, 55), (27, 42), (33, 48), (35, 36), (37, 38), (41, 56), (50, 51), (52, 53), (2, 17),
  (3, 33), (4, 19), (5, 50), (6, 51), (7, 37), (8, 38), (9, 24), (10, 25), (11, 41), (18, 48),
  (20, 35), (21, 36), (22, 52), (23, 53), (26, 56), (32, 47), (34, 49), (39, 54), (40, 55),
  (4, 15), (5, 20), (6, 21), (7, 22), (8, 23), (9, 31), (11, 48), (12, 19), (17, 32), (18, 33),
  (24, 39), (25, 40), (26, 41), (27, 49), (35, 50), (36, 51), (37, 52), (38, 53), (43, 54),
  (44, 55), (1, 4), (5, 16), (6, 17), (7, 18), (8, 30), (10, 32), (11, 33), (13, 20), (14, 21),
  (19, 34), (22, 37), (23, 38), (24, 46), (25, 47), (26, 48), (28, 50), (29, 51), (41, 52),
  (42, 53), (54, 56), (55, 58), (3, 5), (8, 15), (9, 16), (10, 17), (11, 18), (13, 24),
  (14, 25), (19, 30), (20, 35), (21, 36), (22, 33), (23, 45), (26, 37), (28, 46), (29, 47),
  (34, 38), (41, 48), (42, 49), (43, 50), (44, 51), (2, 8), (5, 9), (12, 23), (18, 22),
  (20, 31), (21, 32), (26, 33), (27, 45), (35, 39), (36, 40), (37, 41), (50, 54), (51, 57),
  (2, 4), (12, 19), (13, 20), (14, 21), (23, 30), (24, 31), (25, 32), (27, 34), (28, 35),
  (29, 36), (38, 45), (39, 46), (40, 47), (55, 57), (12, 15), (13, 16), (14, 17), (19, 23),
  (20, 24), (21, 25), (27, 30), (28, 31), (29, 32), (34, 38), (35, 39), (36, 40), (42, 45),
  (43, 46), (44, 47), (6, 12), (7, 13), (10, 15), (11, 16), (14, 19), (17, 23), (18, 20),
  (21, 27), (22, 24), (25, 30), (26, 28), (29, 34), (31, 33), (32, 38), (35, 37), (36, 42),
  (39, 41), (40, 45), (43, 48), (44, 49), (46, 52), (47, 53), (6, 8), (7, 9), (10, 12),
  (11, 15), (13, 14), (16, 18), (17, 19), (20, 22), (21, 23), (24, 27), (25, 26), (28, 30),
  (29, 31), (32, 34), (33, 35), (36, 37), (38, 39), (40, 42), (41, 43), (44, 48), (45, 46),
  (47, 49), (50, 52), (51, 53), (3, 6), (5, 8), (7, 10), (9, 12), (11, 13), (14, 15), (16, 17),
  (18, 19), (20, 21), (22, 23), (24, 25), (26, 27), (28, 29), (30, 31), (32, 33), (34, 35),
  (36, 38), (37, 39), (40, 41), (42, 43), (44, 45), (46, 48), (47, 50), (49, 52), (51, 54),
  (53, 56), (3, 4), (5, 6), (7, 8), (9, 10), (11, 12), (13, 14), (15, 16), (17, 18), (19, 20),
  (21, 22), (23, 24), (25, 26), (27, 28), (29, 30), (31, 32), (33, 34), (35, 36), (37, 38),
  (39, 40), (41, 42), (43, 44), (45, 46), (47, 48), (49, 50), (51, 52), (53, 54), (55, 56)]

/-- detail/sorting_network/sort61.h 27-523. -/
def net61 : List (Nat × Nat) := [
  (1, 2), (3, 10), (4, 14), (5, 8), (6, 13), (7, 12), (9, 11), (16, 17), (18, 25), (19, 29),
  (20, 23), (21, 28), (22, 27), (24, 26), (31, 32), (33, 40), (34, 44), (35, 38), (36, 43),
  (37, 42), (39, 41), (45, 58), (46, 57), (47, 60), (48, 59), (49, 53), (50, 51), (52, 56),
  (54, 55), (0, 14), (1, 5), (2, 8), (3, 7), (6, 9), (10, 12), (11, 13), (15, 29), (16, 20),
  (17, 23), (18, 22), (21, 24), (25, 27), (26, 28), (30, 44), (31, 35), (32, 38), (33, 37),
  (36, 39), (40, 42), (41, 43), (45, 50), (46, 52), (47, 54), (48, 49), (51, 58), (53, 59),
  (55, 60), (56, 57), (0, 7), (1, 6), (2, 9), (4, 10), (5, 11), (8, 13), (12, 14), (15, 22),
  (16, 21), (17, 24), (19, 25), (20, 26), (23, 28), (27, 29), (30, 37), (31, 36), (32, 39),
  (34, 40), (35, 41), (38, 43), (42, 44), (45, 46), (47, 48), (49, 50), (51, 53), (52, 54),
  (55, 56), (57, 58), (59, 60), (0, 6), (2, 4), (3, 5), (7, 11), (8, 10), (9, 12), (13, 14),
  (15, 21), (17, 19), (18, 20), (22, 26), (23, 25), (24, 27), (28, 29), (30, 36), (32, 34),
  (33, 35), (37, 41), (38, 40), (39, 42), (43, 44), (45, 47), (46, 48), (49, 55), (50, 56),
  (51, 52), (53, 54), (57, 59), (58, 60), (0, 3), (1, 2), (4, 7), (5, 9), (6, 8), (10, 11),
  (12, 13), (15, 18), (16, 17), (19, 22), (20, 24), (21, 23), (25, 26), (27, 28), (29, 44),
  (30, 33), (31, 32), (34, 37), (35, 39), (36, 38), (40, 41), (42, 43), (46, 47), (48, 57),
  (49, 51), (50, 52), (53, 55), (54, 56), (58, 59), (0, 1), (2, 3), (4, 6), (7, 9), (10, 12),
  (11, 13), (15, 16), (17, 18), (19, 21), (22, 24), (25, 27), (26, 28), (30, 31), (32, 33),
  (34, 36), (37, 39), (40, 42), (41, 43), (46, 49), (47, 51), (50, 53), (52, 55), (54, 58),
  (56, 59), (0, 30), (1, 2), (3, 5), (8, 10), (11, 12), (14, 59), (15, 45), (16, 17), (18, 20),
  (23, 25), (26, 27), (28, 43), (31, 32), (33, 35), (38, 40), (41, 42), (47, 49), (48, 51),
  (54, 57), (56, 58), (0, 15), (1, 31), (3, 4), (5, 6), (7, 8), (9, 10), (13, 58), (14, 29),
  (16, 46), (18, 19), (20, 21), (22, 23), (24, 25), (27, 42), (30, 45), (33, 34), (35, 36),
  (37, 38), (39, 40), (44, 59), (48, 50), (51, 53), (52, 54), (55, 57), (1, 16), (2, 3),
  (4, 5), (6, 7), (8, 9), (10, 11), (13, 28), (15, 30), (17, 18), (19, 20), (21, 22), (23, 24),
  (25, 26), (29, 44), (31, 46), (32, 33), (34, 35), (36, 37), (38, 39), (40, 41), (43, 58),
  (48, 49), (50, 51), (52, 53), (54, 55), (56, 57), (2, 32), (3, 33), (4, 49), (5, 6), (7, 8),
  (9, 39), (10, 40), (11, 41), (12, 57), (16, 31), (17, 47), (18, 48), (19, 34), (20, 21),
  (22, 23), (25, 55), (26, 60), (28, 43), (35, 36), (37, 38), (51, 52), (53, 54), (2, 17),
  (3, 18), (4, 19), (5, 50), (6, 51), (7, 37), (8, 38), (10, 25), (11, 26), (12, 27), (20, 35),
  (21, 36), (23, 53), (24, 54), (32, 47), (33, 48), (34, 49), (40, 55), (41, 60), (42, 57),
  (4, 15), (5, 20), (6, 21), (7, 52), (8, 23), (9, 24), (12, 19), (17, 32), (18, 33), (22, 37),
  (25, 40), (26, 41), (27, 42), (35, 50), (36, 51), (38, 53), (39, 54), (44, 55), (58, 60),
  (1, 4), (5, 16), (6, 17), (8, 30), (9, 31), (10, 32), (13, 20), (14, 21), (19, 34), (23, 38),
  (24, 39), (25, 47), (27, 49), (28, 50), (29, 51), (37, 56), (42, 53), (43, 54), (48, 52),
  (8, 15), (9, 16), (10, 17), (11, 37), (14, 25), (19, 30), (20, 35), (21, 36), (22, 48),
  (23, 45), (24, 46), (26, 52), (29, 47), (34, 38), (41, 56), (42, 49), (43, 50), (44, 51),
  (54, 58), (2, 8), (3, 9), (7, 22), (11, 33), (12, 23), (13, 24), (20, 31), (21, 32),
  (27, 45), (28, 46), (35, 39), (36, 40), (37, 48), (41, 52), (50, 56), (51, 57), (2, 4),
  (5, 8), (7, 18), (12, 19), (13, 20), (14, 21), (23, 30), (24, 31), (25, 32), (27, 34),
  (28, 35), (29, 36), (33, 37), (38, 45), (39, 46), (40, 47), (41, 48), (51, 54), (57, 58),
  (11, 18), (12, 15), (13, 16), (14, 17), (19, 23), (20, 24), (21, 25), (22, 33), (26, 37),
  (27, 30), (28, 31), (29, 32), (34, 38), (35, 39), (36, 40), (42, 45), (43, 46), (44, 47),
  (51, 56), (55, 57), (6, 12), (7, 13), (10, 15), (11, 16), (14, 19), (17, 23), (18, 22),
  (21, 27), (25, 30), (26, 33), (29, 34), (32, 38), (36, 42), (37, 41), (40, 45), (43, 48),
  (44, 49), (46, 52), (47, 53), (57, 60), (6, 8), (7, 10), (9, 12), (11, 13), (14, 15),
  (16, 19), (18, 20), (22, 24), (26, 28), (29, 30), (31, 33), (35, 37), (39, 41), (42, 43),
  (44, 46), (45, 48), (47, 50), (49, 52), (51, 53), (57, 58), (59, 60), (3, 6), (7, 12),
  (11, 14), (13, 15), (17, 18), (20, 21), (22, 23), (24, 27), (25, 26), (28, 31), (32, 35),
  (33, 34), (36, 39), (37, 38), (40, 41), (44, 45), (46, 48), (47, 52), (53, 56), (3, 5),
  (6, 8), (7, 9), (10, 12), (13, 14), (16, 17), (18, 19), (20, 22), (21, 23), (24, 25),
  (26, 27), (28, 29), (30, 31), (32, 33), (34, 35), (36, 37), (38, 39), (40, 42), (41, 43),
  (45, 46), (47, 49), (50, 52), (54, 56), (3, 4), (7, 8), (11, 12), (15, 16), (17, 18),
  (19, 20), (21, 22), (23, 24), (25, 26), (27, 28), (29, 30), (31, 32), (33, 34), (35, 36),
  (37, 38), (39, 40), (41, 42), (43, 44), (47, 48), (51, 52), (55, 56)]

/-- detail/sorting_network/sort61.h 531-554. -/
def netPairs61 : List (Nat × Nat) := [
  (1, 2), (3, 10), (4, 14), (5, 8), (6, 13), (7, 12), (9, 11), (16, 17), (18, 25), (19, 29),
  (20, 23), (21, 28), (22, 27), (24, 26), (31, 32), (33, 40), (34, 44), (35, 38), (36, 43),
  (37, 42), (39, 41), (45, 58), (46, 57), (47, 60), (48, 59), (49, 53), (50, 51), (52, 56),
  (54, 55), (0, 14), (1, 5), (2, 8), (3, 7), (6, 9), (10, 12), (11, 13), (15, 29), (16, 20),
  (17, 23), (18, 22), (21, 24), (25, 27), (26, 28), (30, 44), (31, 35), (32, 38), (33, 37),
  (36, 39), (40, 42), (41, 43), (45, 50), (46, 52), (47, 54), (48, 49), (51, 58), (53, 59),
  (55, 60), (56, 57), (0, 7), (1, 6), (2, 9), (4, 10), (5, 11), (8, 13), (12, 14), (15, 22),
  (16, 21), (17, 24), (19, 25), (20, 26), (23, 28), (27, 29), (30, 37), (31, 36), (32, 39),
  (34, 40), (35, 41), (38, 43), (42, 44), (45, 46), (47, 48), (49, 50), (51, 53), (52, 54),
  (55, 56), (57, 58), (59, 60), (0, 6), (2, 4), (3, 5), (7, 11), (8, 10), (9, 12), (13, 14),
  (15, 21), (17, 19), (18, 20), (22, 26), (23, 25), (24, 27), (28, 29), (30, 36), (32, 34),
  (33, 35), (37, 41), (38, 40), (39, 42), (43, 44), (45, 47), (46, 48), (49, 55), (50, 56),
  (51, 52), (53, 54), (57, 59), (58, 60), (0, 3), (1, 2), (4, 7), (5, 9), (6, 8), (10, 11),
  (12, 13), (15, 18), (16, 17), (19, 22), (20, 24), (21, 23), (25, 26), (27, 28), (29, 44),
  (30, 33), (31, 32), (34, 37), (35, 39), (36, 38), (40, 41), (42, 43), (46, 47), (48, 57),
  (49, 51), (50, 52), (53, 55), (54, 56), (58, 59), (0, 1), (2, 3), (4, 6), (7, 9), (10, 12),
  (11, 13), (15, 16), (17, 18), (19, 21), (22, 24), (25, 27), (26, 28), (30, 31), (32, 33),
  (34, 36), (37, 39), (40, 42), (41, 43), (46, 49), (47, 51), (50, 53), (52, 55), (54, 58),
  (56, 59), (0, 30), (1, 2), (3, 5), (8, 10), (11, 12), (14, 59), (15, 45), (16, 17), (18, 20),
  (23, 25), (26, 27), (28, 43), (31, 32), (33, 35), (38, 40), (41, 42), (47, 49), (48, 51),
  (54, 57), (56, 58), (0, 15), (1, 31), (3, 4), (5, 6), (7, 8), (9, 10), (13, 58), (14, 29),
  (16, 46), (18, 19), (20, 21), (22, 23), (24, 25), (27, 42), (30, 45), (33, 34), (35, 36),
  (37, 38), (39, 40), (44, 59), (48, 50), (51, 53), (52, 54), (55, 57), (1, 16), (2, 3),
  (4, 5), (6, 7), (8, 9), (10, 11), (13, 28), (15, 30), (17, 18), (19, 20), (21, 22), (23, 24),
  (25, 26), (29, 44), (31, 46), (32, 33), (34, 35), (36, 37), (38, 39), (40, 41), (43, 58),
  (48, 49), (50, 51), (52, 53), (54, 55), (56, 57), (2, 32), (3, 33), (4, 49), (5, 6), (7, 8),
  (9, 39), (10, 40), (11, 41), (12, 57), (16, 31), (17, 47), (18, 48), (19, 34), (20, 21),
  (22, 23), (25, 55), (26, 60), (28, 43), (35, 36), (37, 38), (51, 52), (53, 54), (2, 17),
  (3, 18), (4, 19), (5, 50), (6, 51), (7, 37), (8, 38), (10, 25), (11, 26), (12, 27), (20, 35),
  (21, 36), (23, 53), (24, 54), (32, 47), (33, 48), (34, 49), (40, 55), (41, 60), (42, 57),
  (4, 15), (5, 20), (6, 21), (7, 52), (8, 23), (9, 24), (12, 19), (17, 32), (18, 33), (22, 37),
  (25, 40), (26, 41), (27, 42), (35, 50), (36, 51), (38, 53), (39, 54), (44, 55), (58, 60),
  (1, 4), (5, 16), (6, 17), (8, 30), (9, 31), (10, 32), (13, 20), (14, 21), (19, 34), (23, 38),
  (24, 39), (25, 47), (27, 49), (28, 50), (29, 51), (37, 56), (42, 53), (43, 54), (48, 52),
  (8, 15), (9, 16), (10, 17), (11, 37), (14, 25), (19, 30), (20, 35), (21, 36), (22, 48),
  (23, 45), (24, 46), (26, 52), (29, 47), (34, 38), (41, 56), (42, 49), (43, 50), (44, 51),
  (54, 58), (2, 8), (3, 9), (7, 22), (11, 33), (12, 23), (13, 24), (20, 31), (21, 32),
  (27, 45), (28, 46), (35, 39), (36, 40), (37, 48), (41, 52), (50, 56), (51, 57), (2, 4),
  (5, 8), (7, 18), (12, 19), (13, 20), (14, 21), (23, 30), (24, 31), (25, 32), (27, 34),
  (28, 35), (29, 36), (33, 37), (38, 45), (39, 46), (40, 47), (41, 48), (51, 54), (57, 58),
  (11, 18), (12, 15), (13, 16), (14, 17), (19, 23), (20, 24), (21, 25), (22, 33), (26, 37),
  (27, 30), (28, 31), (29, 32), (34, 38), (35, 39), (36, 40), (42, 45), (43, 46), (44, 47),
  (51, 56), (55, 57), (6, 12), (7, 13), (10, 15), (11, 16), (14, 19), (17, 23), (18, 22),
  (21, 27), (25, 30), (26, 33), (29, 34), (32, 38), (36, 42), (37, 41), (40, 45), (43, 48),
  (44, 49), (46, 52), (47, 53), (57, 60), (6, 8), (7, 10), (9, 12), (11, 13), (14, 15),
  (16, 19), (18, 20), (22, 24), (26, 28), (29, 30), (31, 33), (35, 37), (39, 41), (42, 43),
  (44, 46), (45, 48), (47, 50), (49, 52), (51, 53), (57, 58), (59, 60), (3, 6), (7, 12),
  (11, 14), (13, 15), (17, 18), (20, 21), (22, 23), (24, 27), (25, 26), (28, 31), (32, 35),
  (33, 34), (36, 39), (37, 38), (40, 41), (44, 45), (46, 48), (47, 52), (53, 56), (3, 5),
  (6, 8), (7, 9), (10, 12), (13, 14), (16, 17), (18, 19), (20, 22), (21, 23), (24, 25),
  (26, 27), (28, 29), (30, 31), (32, 33), (34, 35), (36, 37), (38, 39), (40, 42), (41, 43),
  (45, 46), (47, 49), (50, 52), (54, 56), (3, 4), (7, 8), (11, 12), (15, 16), (17, 18),
  (19, 20), (21, 22), (23, 24), (25, 26), (27, 28), (29, 30), (31, 32), (33, 34), (35, 36),
  (37, 38), (39, 40), (41, 42), (43, 44), (47, 48), (51, 52), (55, 56)]

/-- detail/sorting_network/sort62.h 27-532. -/
def net62 : List (Nat × Nat) := [
  (1, 2), (3, 10), (4, 14), (5, 8), (6, 13), (7, 12), (9, 11), (15, 28), (16, 27), (17, 30),
  (18, 29), (19, 23), (20, 21), (22, 26), (24, 25), (32, 33), (34, 41), (35, 45), (36, 39),
  (37, 44), (38, 43), (40, 42), (46, 59), (47, 58), (48, 61), (49, 60), (50, 54), (51, 52),
  (53, 57), (55, 56), (0, 14), (1, 5), (2, 8), (3, 7), (6, 9), (10, 12), (11, 13), (15, 20),
  (16, 22), (17, 24), (18, 19), (21, 28), (23, 29), (25, 30), (26, 27), (31, 45), (32, 36),
  (33, 39), (34, 38), (37, 40), (41, 43), (42, 44), (46, 51), (47, 53), (48, 55), (49, 50),
  (52, 59), (54, 60), (56, 61), (57, 58), (0, 7), (1, 6), (2, 9), (4, 10), (5, 11), (8, 13),
  (12, 14), (15, 16), (17, 18), (19, 20), (21, 23), (22, 24), (25, 26), (27, 28), (29, 30),
  (31, 38), (32, 37), (33, 40), (35, 41), (36, 42), (39, 44), (43, 45), (46, 47), (48, 49),
  (50, 51), (52, 54), (53, 55), (56, 57), (58, 59), (60, 61), (0, 6), (2, 4), (3, 5), (7, 11),
  (8, 10), (9, 12), (13, 14), (15, 17), (16, 18), (19, 25), (20, 26), (21, 22), (23, 24),
  (27, 29), (28, 30), (31, 37), (33, 35), (34, 36), (38, 42), (39, 41), (40, 43), (44, 45),
  (46, 48), (47, 49), (50, 56), (51, 57), (52, 53), (54, 55), (58, 60), (59, 61), (0, 3),
  (1, 2), (4, 7), (5, 9), (6, 8), (10, 11), (12, 13), (15, 46), (16, 17), (18, 27), (19, 21),
  (20, 22), (23, 25), (24, 26), (28, 29), (31, 34), (32, 33), (35, 38), (36, 40), (37, 39),
  (41, 42), (43, 44), (47, 48), (49, 58), (50, 52), (51, 53), (54, 56), (55, 57), (59, 60),
  (0, 1), (2, 3), (4, 6), (7, 9), (10, 12), (11, 13), (16, 19), (17, 21), (20, 23), (22, 25),
  (24, 28), (26, 29), (31, 32), (33, 34), (35, 37), (38, 40), (41, 43), (42, 44), (47, 50),
  (48, 52), (51, 54), (53, 56), (55, 59), (57, 60), (0, 31), (1, 2), (3, 5), (8, 10), (11, 12),
  (14, 60), (16, 47), (17, 19), (18, 21), (24, 27), (26, 28), (29, 45), (32, 33), (34, 36),
  (39, 41), (42, 43), (48, 50), (49, 52), (55, 58), (57, 59), (0, 15), (1, 32), (3, 4), (5, 6),
  (7, 8), (9, 10), (13, 59), (14, 29), (17, 48), (18, 20), (21, 23), (22, 24), (25, 27),
  (28, 44), (31, 46), (34, 35), (36, 37), (38, 39), (40, 41), (45, 60), (49, 51), (52, 54),
  (53, 55), (56, 58), (1, 16), (2, 3), (4, 5), (6, 7), (8, 9), (10, 11), (13, 28), (15, 31),
  (18, 19), (20, 21), (22, 23), (24, 25), (26, 27), (29, 45), (32, 47), (33, 34), (35, 36),
  (37, 38), (39, 40), (41, 42), (44, 59), (49, 50), (51, 52), (53, 54), (55, 56), (57, 58),
  (2, 33), (3, 34), (4, 50), (5, 6), (7, 8), (9, 40), (10, 41), (11, 61), (12, 58), (16, 32),
  (18, 49), (19, 35), (21, 22), (23, 24), (25, 56), (26, 57), (27, 43), (28, 44), (30, 42),
  (36, 37), (38, 39), (52, 53), (54, 55), (2, 17), (3, 18), (4, 19), (5, 51), (6, 52), (7, 38),
  (8, 39), (10, 25), (11, 30), (12, 27), (20, 36), (21, 37), (22, 53), (23, 54), (24, 55),
  (33, 48), (35, 50), (41, 56), (42, 61), (43, 58), (4, 15), (5, 20), (6, 21), (7, 49),
  (8, 23), (9, 24), (12, 19), (17, 33), (22, 34), (25, 41), (27, 43), (30, 42), (36, 51),
  (37, 52), (38, 57), (39, 54), (40, 55), (45, 56), (59, 61), (1, 4), (5, 16), (6, 17),
  (7, 18), (8, 31), (9, 32), (10, 33), (11, 22), (13, 20), (14, 21), (19, 35), (23, 39),
  (24, 40), (25, 48), (26, 38), (27, 50), (28, 51), (29, 52), (34, 53), (42, 57), (43, 54),
  (44, 55), (60, 61), (7, 11), (8, 15), (9, 16), (10, 17), (14, 25), (18, 26), (19, 31),
  (20, 36), (21, 37), (22, 34), (23, 46), (24, 47), (29, 48), (30, 53), (35, 39), (38, 49),
  (43, 50), (44, 51), (45, 52), (56, 57), (2, 8), (3, 9), (11, 18), (12, 23), (13, 24),
  (20, 32), (21, 33), (26, 38), (27, 46), (28, 47), (30, 34), (36, 40), (37, 41), (42, 53),
  (52, 58), (55, 56), (57, 60), (2, 4), (5, 8), (12, 19), (13, 20), (14, 21), (22, 26),
  (23, 31), (24, 32), (25, 33), (27, 35), (28, 36), (29, 37), (30, 38), (34, 49), (39, 46),
  (40, 47), (41, 48), (51, 53), (58, 59), (3, 8), (12, 15), (13, 16), (14, 17), (18, 22),
  (19, 23), (20, 24), (21, 25), (26, 30), (27, 31), (28, 32), (29, 33), (34, 38), (35, 39),
  (36, 40), (37, 41), (42, 49), (43, 46), (44, 47), (45, 48), (53, 55), (56, 58), (57, 59),
  (6, 12), (7, 13), (10, 15), (11, 16), (14, 19), (17, 23), (18, 20), (21, 27), (22, 24),
  (25, 31), (26, 28), (29, 35), (30, 32), (33, 39), (34, 36), (37, 43), (38, 40), (41, 46),
  (42, 44), (45, 50), (47, 49), (48, 54), (57, 58), (3, 6), (7, 9), (10, 12), (11, 13),
  (14, 15), (16, 18), (17, 19), (20, 22), (21, 23), (24, 26), (25, 27), (28, 29), (30, 31),
  (32, 33), (34, 35), (36, 37), (38, 39), (40, 42), (41, 43), (44, 47), (45, 46), (48, 50),
  (49, 51), (52, 54), (3, 5), (6, 8), (7, 10), (9, 12), (11, 14), (13, 15), (16, 17), (18, 19),
  (20, 21), (22, 23), (24, 25), (26, 27), (28, 30), (29, 31), (32, 34), (33, 35), (36, 38),
  (37, 39), (40, 41), (42, 43), (44, 45), (46, 47), (48, 49), (50, 51), (52, 53), (54, 55),
  (3, 4), (7, 8), (9, 10), (11, 12), (13, 14), (15, 16), (17, 18), (19, 20), (21, 22),
  (23, 24), (25, 26), (27, 28), (29, 30), (31, 32), (33, 34), (35, 36), (37, 38), (39, 40),
  (41, 42), (43, 44), (45, 46), (47, 48), (49, 50), (51, 52), (53, 54), (55, 56)]

/-- detail/sorting_network/sort62.h 540-562. -/
def netPairs62 : List (Nat × Nat) := [
  (1, 2), (3, 10), (4, 14), (5, 8), (6, 13), (7, 12), (9, 11), (15, 28), (16, 27), (17, 30),
  (18, 29), (19, 23), (20, 21), (22, 26), (24, 25), (32, 33), (34, 41), (35, 45), (36, 39),
  (37, 44), (38, 43), (40, 42), (46, 59), (47, 58), (48, 61), (49, 60), (50, 54), (51, 52),
  (53, 57), (55, 56), (0, 14), (1, 5), (2, 8), (3, 7), (6, 9), (10, 12), (11, 13), (15, 20),
  (16, 22), (17, 24), (18, 19), (21, 28), (23, 29), (25, 30), (26, 27), (31, 45), (32, 36),
  (33, 39), (34, 38), (37, 40), (41, 43), (42, 44), (46, 51), (47, 53), (48, 55), (49, 50),
  (52, 59), (54, 60), (56, 61), (57, 58), (0, 7), (1, 6), (2, 9), (4, 10), (5, 11), (8, 13),
  (12, 14), (15, 16), (17, 18), (19, 20), (21, 23), (22, 24), (25, 26), (27, 28), (29, 30),
  (31, 38), (32, 37), (33, 40), (35, 41), (36, 42), (39, 44), (43, 45), (46, 47), (48, 49),
  (50, 51), (52, 54), (53, 55), (56, 57), (58, 59), (60, 61), (0, 6), (2, 4), (3, 5), (7, 11),
  (8, 10), (9, 12), (13, 14), (15, 17), (16, 18), (19, 25), (20, 26), (21, 22), (23, 24),
  (27, 29), (28, 30), (31, 37), (33, 35), (34, 36), (38, 42), (39, 41), (40, 43), (44, 45),
  (46, 48), (47, 49), (50, 56), (51, 57), (52, 53), (54, 55), (58, 60), (59, 61), (0, 3),
  (1, 2), (4, 7), (5, 9), (6, 8), (10, 11), (12, 13), (15, 46), (16, 17), (18, 27), (19, 21),
  (20, 22), (23, 25), (24, 26), (28, 29), (31, 34), (32, 33), (35, 38), (36, 40), (37, 39),
  (41, 42), (43, 44), (47, 48), (49, 58), (50, 52), (51, 53), (54, 56), (55, 57), (59, 60),
  (0, 1), (2, 3), (4, 6), (7, 9), (10, 12), (11, 13), (16, 19), (17, 21), (20, 23), (22, 25),
  (24, 28), (26, 29), (31, 32), (33, 34), (35, 37), (38, 40), (41, 43), (42, 44), (47, 50),
  (48, 52), (51, 54), (53, 56), (55, 59), (57, 60), (0, 31), (1, 2), (3, 5), (8, 10), (11, 12),
  (14, 60), (16, 47), (17, 19), (18, 21), (24, 27), (26, 28), (29, 45), (32, 33), (34, 36),
  (39, 41), (42, 43), (48, 50), (49, 52), (55, 58), (57, 59), (0, 15), (1, 32), (3, 4), (5, 6),
  (7, 8), (9, 10), (13, 59), (14, 29), (17, 48), (18, 20), (21, 23), (22, 24), (25, 27),
  (28, 44), (31, 46), (34, 35), (36, 37), (38, 39), (40, 41), (45, 60), (49, 51), (52, 54),
  (53, 55), (56, 58), (1, 16), (2, 3), (4, 5), (6, 7), (8, 9), (10, 11), (13, 28), (15, 31),
  (18, 19), (20, 21), (22, 23), (24, 25), (26, 27), (29, 45), (32, 47), (33, 34), (35, 36),
  (37, 38), (39, 40), (41, 42), (44, 59), (49, 50), (51, 52), (53, 54), (55, 56), (57, 58),
  (2, 33), (3, 34), (4, 50), (5, 6), (7, 8), (9, 40), (10, 41), (11, 61), (12, 58), (16, 32),
  (18, 49), (19, 35), (21, 22), (23, 24), (25, 56), (26, 57), (27, 43), (28, 44), (30, 42),
  (36, 37), (38, 39), (52, 53), (54, 55), (2, 17), (3, 18), (4, 19), (5, 51), (6, 52), (7, 38),
  (8, 39), (10, 25), (11, 30), (12, 27), (20, 36), (21, 37), (22, 53), (23, 54), (24, 55),
  (33, 48), (35, 50), (41, 56), (42, 61), (43, 58), (4, 15), (5, 20), (6, 21), (7, 49),
  (8, 23), (9, 24), (12, 19), (17, 33), (22, 34), (25, 41), (27, 43), (30, 42), (36, 51),
  (37, 52), (38, 57), (39, 54), (40, 55), (45, 56), (59, 61), (1, 4), (5, 16), (6, 17),
  (7, 18), (8, 31), (9, 32), (10, 33), (11, 22), (13, 20), (14, 21), (19, 35), (23, 39),
  (24, 40), (25, 48), (26, 38), (27, 50), (28, 51), (29, 52), (34, 53), (42, 57), (43, 54),
  (44, 55), (60, 61), (7, 11), (8, 15), (9, 16), (10, 17), (14, 25), (18, 26), (19, 31),
  (20, 36), (21, 37), (22, 34), (23, 46), (24, 47), (29, 48), (30, 53), (35, 39), (38, 49),
  (43, 50), (44, 51), (45, 52), (56, 57), (2, 8), (3, 9), (11, 18), (12, 23), (13, 24),
  (20, 32), (21, 33), (26, 38), (27, 46), (28, 47), (30, 34), (36, 40), (37, 41), (42, 53),
  (52, 58), (55, 56), (57, 60), (2, 4), (5, 8), (12, 19), (13, 20), (14, 21), (22, 26),
  (23, 31), (24, 32), (25, 33), (27, 35), (28, 36), (29, 37), (30, 38), (34, 49), (39, 46),
  (40, 47), (41, 48), (51, 53), (58, 59), (3, 8), (12, 15), (13, 16), (14, 17), (18, 22),
  (19, 23), (20, 24), (21, 25), (26, 30), (27, 31), (28, 32), (29, 33), (34, 38), (35, 39),
  (36, 40), (37, 41), (42, 49), (43, 46), (44, 47), (45, 48), (53, 55), (56, 58), (57, 59),
  (6, 12), (7, 13), (10, 15), (11, 16), (14, 19), (17, 23), (18, 20), (21, 27), (22, 24),
  (25, 31), (26, 28), (29, 35), (30, 32), (33, 39), (34, 36), (37, 43), (38, 40), (41, 46),
  (42, 44), (45, 50), (47, 49), (48, 54), (57, 58), (3, 6), (7, 9), (10, 12), (11, 13),
  (14, 15), (16, 18), (17, 19), (20, 22), (21, 23), (24, 26), (25, 27), (28, 29), (30, 31),
  (32, 33), (34, 35), (36, 37), (38, 39), (40, 42), (41, 43), (44, 47), (45, 46), (48, 50),
  (49, 51), (52, 54), (3, 5), (6, 8), (7, 10), (9, 12), (11, 14), (13, 15), (16, 17), (18, 19),
  (20, 21), (22, 23), (24, 25), (26, 27), (28, 30), (29, 31), (32, 34), (33, 35), (36, 38),
  (37, 39), (40, 41), (42, 43), (44, 45), (46, 47), (48, 49), (50, 51), (52, 53), (54, 55),
  (3, 4), (7, 8), (9, 10), (11, 12), (13, 14), (15, 16), (17, 18), (19, 20), (21, 22),
  (23, 24), (25, 26), (27, 28), (29, 30), (31, 32), (33, 34), (35, 36), (37, 38), (39, 40),
  (41, 42), (43, 44), (45, 46), (47, 48), (49, 50), (51, 52), (53, 54), (55, 56)]

/-- detail/sorting_network/sort63.h 27-541. -/
def net63 : List (Nat × Nat) := [
  (1, 2), (3, 10), (4, 14), (5, 8), (6, 13), (7, 12), (9, 11), (15, 28), (16, 27), (17, 30),
  (18, 29), (19, 23), (20, 21), (22, 26), (24, 25), (31, 44), (32, 43), (33, 46), (34, 45),
  (35, 39), (36, 37), (38, 42), (40, 41), (47, 60), (48, 59), (49, 62), (50, 61), (51, 55),
  (52, 53), (54, 58), (56, 57), (0, 14), (1, 5), (2, 8), (3, 7), (6, 9), (10, 12), (11, 13),
  (15, 20), (16, 22), (17, 24), (18, 19), (21, 28), (23, 29), (25, 30), (26, 27), (31, 36),
  (32, 38), (33, 40), (34, 35), (37, 44), (39, 45), (41, 46), (42, 43), (47, 52), (48, 54),
  (49, 56), (50, 51), (53, 60), (55, 61), (57, 62), (58, 59), (0, 7), (1, 6), (2, 9), (4, 10),
  (5, 11), (8, 13), (12, 14), (15, 16), (17, 18), (19, 20), (21, 23), (22, 24), (25, 26),
  (27, 28), (29, 30), (31, 32), (33, 34), (35, 36), (37, 39), (38, 40), (41, 42), (43, 44),
  (45, 46), (47, 48), (49, 50), (51, 52), (53, 55), (54, 56), (57, 58), (59, 60), (61, 62),
  (0, 6), (2, 4), (3, 5), (7, 11), (8, 10), (9, 12), (13, 14), (15, 17), (16, 18), (19, 25),
  (20, 26), (21, 22), (23, 24), (27, 29), (28, 30), (31, 33), (32, 34), (35, 41), (36, 42),
  (37, 38), (39, 40), (43, 45), (44, 46), (47, 49), (48, 50), (51, 57), (52, 58), (53, 54),
  (55, 56), (59, 61), (60, 62), (0, 3), (1, 2), (4, 7), (5, 9), (6, 8), (10, 11), (12, 13),
  (15, 47), (16, 17), (18, 27), (19, 21), (20, 22), (23, 25), (24, 26), (28, 29), (32, 33),
  (34, 43), (35, 37), (36, 38), (39, 41), (40, 42), (44, 45), (46, 62), (48, 49), (50, 59),
  (51, 53), (52, 54), (55, 57), (56, 58), (60, 61), (0, 1), (2, 3), (4, 6), (7, 9), (10, 12),
  (11, 13), (16, 19), (17, 21), (20, 23), (22, 25), (24, 28), (26, 29), (32, 35), (33, 37),
  (36, 39), (38, 41), (40, 44), (42, 45), (48, 51), (49, 53), (52, 55), (54, 57), (56, 60),
  (58, 61), (0, 31), (1, 2), (3, 5), (8, 10), (11, 12), (14, 61), (16, 48), (17, 19), (18, 21),
  (24, 27), (26, 28), (29, 45), (33, 35), (34, 37), (40, 43), (42, 44), (49, 51), (50, 53),
  (56, 59), (58, 60), (0, 15), (1, 32), (3, 4), (5, 6), (7, 8), (9, 10), (13, 60), (14, 29),
  (17, 49), (18, 20), (21, 23), (22, 24), (25, 27), (28, 44), (31, 47), (34, 36), (37, 39),
  (38, 40), (41, 43), (45, 61), (50, 52), (53, 55), (54, 56), (57, 59), (1, 16), (2, 3),
  (4, 5), (6, 7), (8, 9), (10, 11), (13, 28), (15, 31), (18, 19), (20, 21), (22, 23), (24, 25),
  (26, 27), (29, 45), (32, 48), (34, 35), (36, 37), (38, 39), (40, 41), (42, 43), (44, 60),
  (50, 51), (52, 53), (54, 55), (56, 57), (58, 59), (2, 33), (4, 51), (5, 6), (7, 8), (10, 41),
  (11, 30), (12, 59), (16, 32), (18, 50), (19, 35), (20, 36), (21, 22), (23, 24), (25, 57),
  (26, 58), (27, 43), (28, 44), (37, 38), (39, 40), (53, 54), (55, 56), (2, 17), (3, 38),
  (4, 19), (5, 52), (6, 53), (7, 42), (8, 39), (9, 40), (10, 25), (11, 46), (12, 27), (18, 34),
  (21, 37), (22, 54), (23, 55), (24, 56), (30, 62), (33, 49), (35, 51), (41, 57), (43, 59),
  (3, 22), (4, 15), (5, 20), (6, 21), (7, 50), (8, 23), (9, 24), (12, 19), (17, 33), (25, 41),
  (26, 34), (27, 43), (30, 46), (36, 52), (37, 53), (38, 54), (39, 55), (40, 56), (42, 58),
  (45, 57), (61, 62), (1, 4), (3, 18), (5, 16), (6, 17), (7, 26), (8, 31), (9, 32), (10, 33),
  (11, 38), (13, 20), (14, 21), (19, 35), (23, 39), (24, 40), (25, 49), (27, 51), (28, 52),
  (29, 53), (30, 54), (42, 50), (43, 55), (44, 56), (46, 58), (7, 18), (8, 15), (9, 16),
  (10, 17), (14, 25), (19, 31), (20, 36), (21, 37), (22, 38), (23, 47), (24, 48), (29, 49),
  (34, 42), (35, 39), (43, 51), (44, 52), (45, 53), (46, 54), (58, 60), (2, 8), (3, 9),
  (11, 22), (12, 23), (13, 24), (20, 32), (21, 33), (26, 34), (27, 47), (28, 48), (30, 38),
  (36, 40), (37, 41), (42, 50), (53, 59), (54, 56), (60, 61), (2, 4), (3, 8), (11, 26),
  (12, 19), (13, 20), (14, 21), (22, 34), (23, 31), (24, 32), (25, 33), (27, 35), (28, 36),
  (29, 37), (30, 42), (38, 50), (39, 47), (40, 48), (41, 49), (56, 57), (58, 59), (11, 18),
  (12, 15), (13, 16), (14, 17), (19, 23), (20, 24), (21, 25), (22, 26), (27, 31), (28, 32),
  (29, 33), (30, 34), (35, 39), (36, 40), (37, 41), (38, 42), (43, 47), (44, 48), (45, 49),
  (46, 50), (56, 58), (57, 59), (6, 12), (7, 13), (10, 15), (11, 16), (14, 19), (17, 23),
  (18, 20), (21, 27), (22, 24), (25, 31), (26, 28), (29, 35), (30, 32), (33, 39), (34, 36),
  (37, 43), (38, 40), (41, 47), (42, 44), (45, 51), (46, 48), (49, 55), (50, 52), (57, 58),
  (59, 60), (5, 6), (7, 10), (9, 12), (11, 15), (13, 14), (16, 19), (17, 18), (20, 23),
  (21, 22), (24, 27), (25, 26), (28, 31), (29, 30), (32, 35), (33, 34), (36, 37), (38, 39),
  (40, 41), (42, 43), (44, 47), (45, 46), (48, 50), (49, 51), (52, 53), (54, 55), (3, 5),
  (6, 8), (7, 9), (10, 12), (11, 13), (14, 15), (16, 17), (18, 19), (20, 21), (22, 23),
  (24, 25), (26, 27), (28, 29), (30, 31), (32, 33), (34, 35), (36, 38), (37, 39), (40, 42),
  (41, 43), (44, 45), (46, 47), (48, 49), (50, 51), (52, 54), (53, 55), (3, 4), (5, 6), (7, 8),
  (9, 10), (11, 12), (13, 14), (15, 16), (17, 18), (19, 20), (21, 22), (23, 24), (25, 26),
  (27, 28), (29, 30), (31, 32), (33, 34), (35, 36), (37, 38), (39, 40), (41, 42), (43, 44),
  (45, 46), (47, 48), (49, 50), (51, 52), (53, 54), (55, 56)]

/-- detail/sorting_network/sort63.h 549-571. -/
def netPairs63 : List (Nat × Nat) := [
  (1, 2), (3, 10), (4, 14), (5, 8), (6, 13), (7, 12), (9, 11), (15, 28), (16, 27), (17, 30),
  (18, 29), (19, 23), (20, 21), (22, 26), (24, 25), (31, 44), (32, 43), (33, 46), (34, 45),
  (35, 39), (36, 37), (38, 42), (40, 41), (47, 60), (48, 59), (49, 62), (50, 61), (51, 55),
  (52, 53), (54, 58), (56, 57), (0, 14), (1, 5), (2, 8), (3, 7), (6, 9), (10, 12), (11, 13),
  (15, 20), (16, 22), (17, 24), (18, 19), (21, 28), (23, 29), (25, 30), (26, 27), (31, 36),
  (32, 38), (33, 40), (34, 35), (37, 44), (39, 45), (41, 46), (42, 43), (47, 52), (48, 54),
  (49, 56), (50, 51), (53, 60), (55, 61), (57, 62), (58, 59), (0, 7), (1, 6), (2, 9), (4, 10),
  (5, 11), (8, 13), (12, 14), (15, 16), (17, 18), (19, 20), (21, 23), (22, 24), (25, 26),
  (27, 28), (29, 30), (31, 32), (33, 34), (35, 36), (37, 39), (38, 40), (41, 42), (43, 44),
  (45, 46), (47, 48), (49, 50), (51, 52), (53, 55), (54, 56), (57, 58), (59, 60), (61, 62),
  (0, 6), (2, 4), (3, 5), (7, 11), (8, 10), (9, 12), (13, 14), (15, 17), (16, 18), (19, 25),
  (20, 26), (21, 22), (23, 24), (27, 29), (28, 30), (31, 33), (32, 34), (35, 41), (36, 42),
  (37, 38), (39, 40), (43, 45), (44, 46), (47, 49), (48, 50), (51, 57), (52, 58), (53, 54),
  (55, 56), (59, 61), (60, 62), (0, 3), (1, 2), (4, 7), (5, 9), (6, 8), (10, 11), (12, 13),
  (15, 47), (16, 17), (18, 27), (19, 21), (20, 22), (23, 25), (24, 26), (28, 29), (32, 33),
  (34, 43), (35, 37), (36, 38), (39, 41), (40, 42), (44, 45), (46, 62), (48, 49), (50, 59),
  (51, 53), (52, 54), (55, 57), (56, 58), (60, 61), (0, 1), (2, 3), (4, 6), (7, 9), (10, 12),
  (11, 13), (16, 19), (17, 21), (20, 23), (22, 25), (24, 28), (26, 29), (32, 35), (33, 37),
  (36, 39), (38, 41), (40, 44), (42, 45), (48, 51), (49, 53), (52, 55), (54, 57), (56, 60),
  (58, 61), (0, 31), (1, 2), (3, 5), (8, 10), (11, 12), (14, 61), (16, 48), (17, 19), (18, 21),
  (24, 27), (26, 28), (29, 45), (33, 35), (34, 37), (40, 43), (42, 44), (49, 51), (50, 53),
  (56, 59), (58, 60), (0, 15), (1, 32), (3, 4), (5, 6), (7, 8), (9, 10), (13, 60), (14, 29),
  (17, 49), (18, 20), (21, 23), (22, 24), (25, 27), (28, 44), (31, 47), (34, 36), (37, 39),
  (38, 40), (41, 43), (45, 61), (50, 52), (53, 55), (54, 56), (57, 59), (1, 16), (2, 3),
  (4, 5), (6, 7), (8, 9), (10, 11), (13, 28), (15, 31), (18, 19), (20, 21), (22, 23), (24, 25),
  (26, 27), (29, 45), (32, 48), (34, 35), (36, 37), (38, 39), (40, 41), (42, 43), (44, 60),
  (50, 51), (52, 53), (54, 55), (56, 57), (58, 59), (2, 33), (4, 51), (5, 6), (7, 8), (10, 41),
  (11, 30), (12, 59), (16, 32), (18, 50), (19, 35), (20, 36), (21, 22), (23, 24), (25, 57),
  (26, 58), (27, 43), (28, 44), (37, 38), (39, 40), (53, 54), (55, 56), (2, 17), (3, 38),
  (4, 19), (5, 52), (6, 53), (7, 42), (8, 39), (9, 40), (10, 25), (11, 46), (12, 27), (18, 34),
  (21, 37), (22, 54), (23, 55), (24, 56), (30, 62), (33, 49), (35, 51), (41, 57), (43, 59),
  (3, 22), (4, 15), (5, 20), (6, 21), (7, 50), (8, 23), (9, 24), (12, 19), (17, 33), (25, 41),
  (26, 34), (27, 43), (30, 46), (36, 52), (37, 53), (38, 54), (39, 55), (40, 56), (42, 58),
  (45, 57), (61, 62), (1, 4), (3, 18), (5, 16), (6, 17), (7, 26), (8, 31), (9, 32), (10, 33),
  (11, 38), (13, 20), (14, 21), (19, 35), (23, 39), (24, 40), (25, 49), (27, 51), (28, 52),
  (29, 53), (30, 54), (42, 50), (43, 55), (44, 56), (46, 58), (7, 18), (8, 15), (9, 16),
  (10, 17), (14, 25), (19, 31), (20, 36), (21, 37), (22, 38), (23, 47), (24, 48), (29, 49),
  (34, 42), (35, 39), (43, 51), (44, 52), (45, 53), (46, 54), (58, 60), (2, 8), (3, 9),
  (11, 22), (12, 23), (13, 24), (20, 32), (21, 33), (26, 34), (27, 47), (28, 48), (30, 38),
  (36, 40), (37, 41), (42, 50), (53, 59), (54, 56), (60, 61), (2, 4), (3, 8), (11, 26),
  (12, 19), (13, 20), (14, 21), (22, 34), (23, 31), (24, 32), (25, 33), (27, 35), (28, 36),
  (29, 37), (30, 42), (38, 50), (39, 47), (40, 48), (41, 49), (56, 57), (58, 59), (11, 18),
  (12, 15), (13, 16), (14, 17), (19, 23), (20, 24), (21, 25), (22, 26), (27, 31), (28, 32),
  (29, 33), (30, 34), (35, 39), (36, 40), (37, 41), (38, 42), (43, 47), (44, 48), (45, 49),
  (46, 50), (56, 58), (57, 59), (6, 12), (7, 13), (10, 15), (11, 16), (14, 19), (17, 23),
  (18, 20), (21, 27), (22, 24), (25, 31), (26, 28), (29, 35), (30, 32), (33, 39), (34, 36),
  (37, 43), (38, 40), (41, 47), (42, 44), (45, 51), (46, 48), (49, 55), (50, 52), (57, 58),
  (59, 60), (5, 6), (7, 10), (9, 12), (11, 15), (13, 14), (16, 19), (17, 18), (20, 23),
  (21, 22), (24, 27), (25, 26), (28, 31), (29, 30), (32, 35), (33, 34), (36, 37), (38, 39),
  (40, 41), (42, 43), (44, 47), (45, 46), (48, 50), (49, 51), (52, 53), (54, 55), (3, 5),
  (6, 8), (7, 9), (10, 12), (11, 13), (14, 15), (16, 17), (18, 19), (20, 21), (22, 23),
  (24, 25), (26, 27), (28, 29), (30, 31), (32, 33), (34, 35), (36, 38), (37, 39), (40, 42),
  (41, 43), (44, 45), (46, 47), (48, 49), (50, 51), (52, 54), (53, 55), (3, 4), (5, 6), (7, 8),
  (9, 10), (11, 12), (13, 14), (15, 16), (17, 18), (19, 20), (21, 22), (23, 24), (25, 26),
  (27, 28), (29, 30), (31, 32), (33, 34), (35, 36), (37, 38), (39, 40), (41, 42), (43, 44),
  (45, 46), (47, 48), (49, 50), (51, 52), (53, 54), (55, 56)]

/-- detail/sorting_network/sort64.h 27-547. -/
def net64 : List (Nat × Nat) := [
  (0, 2), (1, 3), (4, 6), (5, 7), (8, 10), (9, 11), (12, 14), (13, 15), (16, 18), (17, 19),
  (20, 22), (21, 23), (24, 26), (25, 27), (28, 30), (29, 31), (32, 34), (33, 35), (36, 38),
  (37, 39), (40, 42), (41, 43), (44, 46), (45, 47), (48, 50), (49, 51), (52, 54), (53, 55),
  (56, 58), (57, 59), (60, 62), (61, 63), (0, 1), (2, 3), (4, 5), (6, 7), (8, 9), (10, 11),
  (12, 13), (14, 15), (16, 17), (18, 19), (20, 21), (22, 23), (24, 25), (26, 27), (28, 29),
  (30, 31), (32, 33), (34, 35), (36, 37), (38, 39), (40, 41), (42, 43), (44, 45), (46, 47),
  (48, 49), (50, 51), (52, 53), (54, 55), (56, 57), (58, 59), (60, 61), (62, 63), (0, 52),
  (1, 2), (3, 55), (4, 48), (5, 6), (7, 51), (8, 60), (9, 10), (11, 63), (12, 56), (13, 14),
  (15, 59), (16, 32), (17, 18), (19, 35), (20, 24), (21, 22), (23, 27), (25, 26), (28, 44),
  (29, 30), (31, 47), (33, 34), (36, 40), (37, 38), (39, 43), (41, 42), (45, 46), (49, 50),
  (53, 54), (57, 58), (61, 62), (0, 20), (1, 53), (2, 54), (3, 23), (4, 28), (5, 49), (6, 50),
  (7, 31), (8, 36), (9, 61), (10, 62), (11, 39), (12, 16), (13, 57), (14, 58), (15, 19),
  (17, 33), (18, 34), (21, 25), (22, 26), (24, 52), (27, 55), (29, 45), (30, 46), (32, 56),
  (35, 59), (37, 41), (38, 42), (40, 60), (43, 63), (44, 48), (47, 51), (0, 4), (1, 21),
  (2, 22), (3, 7), (5, 29), (6, 30), (8, 12), (9, 37), (10, 38), (11, 15), (13, 17), (14, 18),
  (16, 20), (19, 23), (24, 32), (25, 53), (26, 54), (27, 35), (28, 36), (31, 39), (33, 57),
  (34, 58), (40, 44), (41, 61), (42, 62), (43, 47), (45, 49), (46, 50), (48, 52), (51, 55),
  (56, 60), (59, 63), (0, 8), (1, 5), (2, 6), (3, 11), (4, 12), (7, 15), (9, 13), (10, 14),
  (16, 40), (17, 21), (18, 22), (19, 43), (20, 44), (23, 47), (24, 28), (25, 33), (26, 34),
  (27, 31), (29, 37), (30, 38), (32, 36), (35, 39), (41, 45), (42, 46), (48, 56), (49, 53),
  (50, 54), (51, 59), (52, 60), (55, 63), (57, 61), (58, 62), (1, 9), (2, 10), (4, 8), (5, 13),
  (6, 14), (7, 11), (12, 48), (15, 51), (16, 24), (17, 41), (18, 42), (19, 27), (20, 28),
  (21, 45), (22, 46), (23, 31), (25, 29), (26, 30), (32, 40), (33, 37), (34, 38), (35, 43),
  (36, 44), (39, 47), (49, 57), (50, 58), (52, 56), (53, 61), (54, 62), (55, 59), (4, 16),
  (5, 9), (6, 10), (7, 19), (8, 24), (11, 27), (13, 49), (14, 50), (17, 25), (18, 26),
  (20, 32), (21, 29), (22, 30), (23, 35), (28, 40), (31, 43), (33, 41), (34, 42), (36, 52),
  (37, 45), (38, 46), (39, 55), (44, 56), (47, 59), (53, 57), (54, 58), (1, 4), (5, 17),
  (6, 18), (8, 16), (9, 25), (10, 26), (11, 19), (12, 24), (15, 27), (21, 33), (22, 34),
  (29, 41), (30, 42), (36, 48), (37, 53), (38, 54), (39, 51), (44, 52), (45, 57), (46, 58),
  (47, 55), (59, 62), (2, 8), (9, 17), (10, 18), (12, 20), (13, 25), (14, 26), (15, 23),
  (24, 32), (27, 35), (28, 36), (31, 39), (37, 49), (38, 50), (40, 48), (43, 51), (45, 53),
  (46, 54), (55, 61), (2, 4), (12, 16), (13, 21), (14, 22), (15, 19), (20, 24), (23, 27),
  (25, 33), (26, 34), (28, 32), (29, 37), (30, 38), (31, 35), (36, 40), (39, 43), (41, 49),
  (42, 50), (44, 48), (47, 51), (59, 61), (4, 16), (5, 20), (10, 40), (13, 17), (14, 18),
  (21, 25), (22, 26), (23, 53), (24, 28), (27, 31), (29, 33), (30, 34), (32, 36), (35, 39),
  (37, 41), (38, 42), (43, 58), (45, 49), (46, 50), (47, 59), (3, 17), (6, 36), (7, 21),
  (8, 32), (9, 24), (11, 41), (13, 28), (14, 44), (15, 45), (18, 48), (19, 49), (22, 52),
  (25, 29), (26, 30), (27, 57), (31, 55), (33, 37), (34, 38), (35, 50), (39, 54), (42, 56),
  (46, 60), (6, 20), (8, 16), (10, 24), (11, 25), (14, 28), (15, 29), (17, 33), (18, 32),
  (21, 37), (22, 36), (26, 42), (27, 41), (30, 46), (31, 45), (34, 48), (35, 49), (38, 52),
  (39, 53), (43, 57), (47, 55), (3, 18), (5, 8), (6, 12), (7, 22), (15, 21), (17, 32),
  (19, 33), (23, 37), (26, 40), (30, 44), (31, 46), (41, 56), (42, 48), (45, 60), (51, 57),
  (55, 58), (3, 16), (7, 20), (11, 26), (18, 24), (19, 25), (22, 28), (23, 29), (27, 33),
  (30, 36), (34, 40), (35, 41), (37, 52), (38, 44), (39, 45), (43, 56), (47, 60), (3, 9),
  (7, 13), (10, 16), (11, 17), (14, 20), (15, 30), (19, 34), (21, 36), (23, 38), (25, 40),
  (26, 32), (27, 42), (29, 44), (31, 37), (33, 48), (43, 49), (46, 52), (47, 53), (50, 56),
  (54, 60), (3, 8), (7, 10), (9, 12), (11, 18), (13, 14), (15, 24), (17, 22), (19, 28),
  (21, 26), (23, 25), (27, 34), (29, 36), (30, 32), (31, 33), (35, 44), (37, 42), (38, 40),
  (39, 48), (41, 46), (45, 52), (49, 50), (51, 54), (53, 56), (55, 60), (3, 6), (7, 12),
  (11, 16), (15, 17), (18, 20), (19, 24), (21, 22), (23, 30), (25, 32), (26, 28), (27, 29),
  (31, 38), (33, 40), (34, 36), (35, 37), (39, 44), (41, 42), (43, 45), (46, 48), (47, 52),
  (51, 56), (57, 60), (3, 5), (6, 8), (7, 9), (10, 12), (11, 13), (14, 16), (15, 18), (17, 20),
  (19, 21), (22, 24), (23, 26), (25, 28), (27, 30), (29, 32), (31, 34), (33, 36), (35, 38),
  (37, 40), (39, 41), (42, 44), (43, 46), (45, 48), (47, 49), (50, 52), (51, 53), (54, 56),
  (55, 57), (58, 60), (3, 4), (7, 8), (11, 12), (13, 14), (15, 16), (17, 18), (19, 20),
  (21, 22), (23, 24), (25, 26), (27, 28), (29, 30), (31, 32), (33, 34), (35, 36), (37, 38),
  (39, 40), (41, 42), (43, 44), (45, 46), (47, 48), (49, 50), (51, 52), (55, 56), (59, 60)]

/-- detail/sorting_network/sort64.h 555-577. -/
def netPairs64 : List (Nat × Nat) := [
  (0, 2), (1, 3), (4, 6), (5, 7), (8, 10), (9, 11), (12, 14), (13, 15), (16, 18), (17, 19),
  (20, 22), (21, 23), (24, 26), (25, 27), (28, 30), (29, 31), (32, 34), (33, 35), (36, 38),
  (37, 39), (40, 42), (41, 43), (44, 46), (45, 47), (48, 50), (49, 51), (52, 54), (53, 55),
  (56, 58), (57, 59), (60, 62), (61, 63), (0, 1), (2, 3), (4, 5), (6, 7), (8, 9), (10, 11),
  (12, 13), (14, 15), (16, 17), (18, 19), (20, 21), (22, 23), (24, 25), (26, 27), (28, 29),
  (30, 31), (32, 33), (34, 35), (36, 37), (38, 39), (40, 41), (42, 43), (44, 45), (46, 47),
  (48, 49), (50, 51), (52, 53), (54, 55), (56, 57), (58, 59), (60, 61), (62, 63), (0, 52),
  (1, 2), (3, 55), (4, 48), (5, 6), (7, 51), (8, 60), (9, 10), (11, 63), (12, 56), (13, 14),
  (15, 59), (16, 32), (17, 18), (19, 35), (20, 24), (21, 22), (23, 27), (25, 26), (28, 44),
  (29, 30), (31, 47), (33, 34), (36, 40), (37, 38), (39, 43), (41, 42), (45, 46), (49, 50),
  (53, 54), (57, 58), (61, 62), (0, 20), (1, 53), (2, 54), (3, 23), (4, 28), (5, 49), (6, 50),
  (7, 31), (8, 36), (9, 61), (10, 62), (11, 39), (12, 16), (13, 57), (14, 58), (15, 19),
  (17, 33), (18, 34), (21, 25), (22, 26), (24, 52), (27, 55), (29, 45), (30, 46), (32, 56),
  (35, 59), (37, 41), (38, 42), (40, 60), (43, 63), (44, 48), (47, 51), (0, 4), (1, 21),
  (2, 22), (3, 7), (5, 29), (6, 30), (8, 12), (9, 37), (10, 38), (11, 15), (13, 17), (14, 18),
  (16, 20), (19, 23), (24, 32), (25, 53), (26, 54), (27, 35), (28, 36), (31, 39), (33, 57),
  (34, 58), (40, 44), (41, 61), (42, 62), (43, 47), (45, 49), (46, 50), (48, 52), (51, 55),
  (56, 60), (59, 63), (0, 8), (1, 5), (2, 6), (3, 11), (4, 12), (7, 15), (9, 13), (10, 14),
  (16, 40), (17, 21), (18, 22), (19, 43), (20, 44), (23, 47), (24, 28), (25, 33), (26, 34),
  (27, 31), (29, 37), (30, 38), (32, 36), (35, 39), (41, 45), (42, 46), (48, 56), (49, 53),
  (50, 54), (51, 59), (52, 60), (55, 63), (57, 61), (58, 62), (1, 9), (2, 10), (4, 8), (5, 13),
  (6, 14), (7, 11), (12, 48), (15, 51), (16, 24), (17, 41), (18, 42), (19, 27), (20, 28),
  (21, 45), (22, 46), (23, 31), (25, 29), (26, 30), (32, 40), (33, 37), (34, 38), (35, 43),
  (36, 44), (39, 47), (49, 57), (50, 58), (52, 56), (53, 61), (54, 62), (55, 59), (4, 16),
  (5, 9), (6, 10), (7, 19), (8, 24), (11, 27), (13, 49), (14, 50), (17, 25), (18, 26),
  (20, 32), (21, 29), (22, 30), (23, 35), (28, 40), (31, 43), (33, 41), (34, 42), (36, 52),
  (37, 45), (38, 46), (39, 55), (44, 56), (47, 59), (53, 57), (54, 58), (1, 4), (5, 17),
  (6, 18), (8, 16), (9, 25), (10, 26), (11, 19), (12, 24), (15, 27), (21, 33), (22, 34),
  (29, 41), (30, 42), (36, 48), (37, 53), (38, 54), (39, 51), (44, 52), (45, 57), (46, 58),
  (47, 55), (59, 62), (2, 8), (9, 17), (10, 18), (12, 20), (13, 25), (14, 26), (15, 23),
  (24, 32), (27, 35), (28, 36), (31, 39), (37, 49), (38, 50), (40, 48), (43, 51), (45, 53),
  (46, 54), (55, 61), (2, 4), (12, 16), (13, 21), (14, 22), (15, 19), (20, 24), (23, 27),
  (25, 33), (26, 34), (28, 32), (29, 37), (30, 38), (31, 35), (36, 40), (39, 43), (41, 49),
  (42, 50), (44, 48), (47, 51), (59, 61), (4, 16), (5, 20), (10, 40), (13, 17), (14, 18),
  (21, 25), (22, 26), (23, 53), (24, 28), (27, 31), (29, 33), (30, 34), (32, 36), (35, 39),
  (37, 41), (38, 42), (43, 58), (45, 49), (46, 50), (47, 59), (3, 17), (6, 36), (7, 21),
  (8, 32), (9, 24), (11, 41), (13, 28), (14, 44), (15, 45), (18, 48), (19, 49), (22, 52),
  (25, 29), (26, 30), (27, 57), (31, 55), (33, 37), (34, 38), (35, 50), (39, 54), (42, 56),
  (46, 60), (6, 20), (8, 16), (10, 24), (11, 25), (14, 28), (15, 29), (17, 33), (18, 32),
  (21, 37), (22, 36), (26, 42), (27, 41), (30, 46), (31, 45), (34, 48), (35, 49), (38, 52),
  (39, 53), (43, 57), (47, 55), (3, 18), (5, 8), (6, 12), (7, 22), (15, 21), (17, 32),
  (19, 33), (23, 37), (26, 40), (30, 44), (31, 46), (41, 56), (42, 48), (45, 60), (51, 57),
  (55, 58), (3, 16), (7, 20), (11, 26), (18, 24), (19, 25), (22, 28), (23, 29), (27, 33),
  (30, 36), (34, 40), (35, 41), (37, 52), (38, 44), (39, 45), (43, 56), (47, 60), (3, 9),
  (7, 13), (10, 16), (11, 17), (14, 20), (15, 30), (19, 34), (21, 36), (23, 38), (25, 40),
  (26, 32), (27, 42), (29, 44), (31, 37), (33, 48), (43, 49), (46, 52), (47, 53), (50, 56),
  (54, 60), (3, 8), (7, 10), (9, 12), (11, 18), (13, 14), (15, 24), (17, 22), (19, 28),
  (21, 26), (23, 25), (27, 34), (29, 36), (30, 32), (31, 33), (35, 44), (37, 42), (38, 40),
  (39, 48), (41, 46), (45, 52), (49, 50), (51, 54), (53, 56), (55, 60), (3, 6), (7, 12),
  (11, 16), (15, 17), (18, 20), (19, 24), (21, 22), (23, 30), (25, 32), (26, 28), (27, 29),
  (31, 38), (33, 40), (34, 36), (35, 37), (39, 44), (41, 42), (43, 45), (46, 48), (47, 52),
  (51, 56), (57, 60), (3, 5), (6, 8), (7, 9), (10, 12), (11, 13), (14, 16), (15, 18), (17, 20),
  (19, 21), (22, 24), (23, 26), (25, 28), (27, 30), (29, 32), (31, 34), (33, 36), (35, 38),
  (37, 40), (39, 41), (42, 44), (43, 46), (45, 48), (47, 49), (50, 52), (51, 53), (54, 56),
  (55, 57), (58, 60), (3, 4), (7, 8), (11, 12), (13, 14), (15, 16), (17, 18), (19, 20),
  (21, 22), (23, 24), (25, 26), (27, 28), (29, 30), (31, 32), (33, 34), (35, 36), (37, 38),
  (39, 40), (41, 42), (43, 44), (45, 46), (47, 48), (49, 50), (51, 52), (55, 56), (59, 60)]

end CppSort
