import Verif.Base.Strands
import Verif.Model.NetData5
/-
The networks for 49 to 56 elements sort every 0-1 input (checked by following all inputs).
-/
set_option autoImplicit false
set_option maxRecDepth 100000

namespace CppSort

/-- Plan for `net49`. -/
def plan49 : Plan := (.node (.node (.node (.node (.node (.node (.wire 37) (.wire 46) [(37,46)]
  false) (.node (.wire 42) (.wire 44) [(42,44)] false) [(37,42),(44,46)] false) (.node (.node
  (.wire 38) (.wire 45) [(38,45)] false) (.node (.wire 39) (.wire 43) [(39,43)] false) [(38,39),
  (43,45)] false) [(37,38),(39,42),(43,44),(45,46)] false) (.node (.node (.node (.wire 41) (.wire
  47) [(41,47)] false) (.wire 40) [(40,47)] false) (.node (.wire 36) (.wire 48) [(36,48)] false)
  [(36,40),(47,48)] false) [(40,42),(41,45),(44,47),(46,48),(36,41),(39,44),(40,43),(42,47),(45,
  46),(36,37),(38,41),(42,45),(43,44),(46,47),(37,39),(38,40),(41,42),(45,46),(37,38),(39,40),(41,
  43),(42,44),(38,39),(40,41),(42,43),(44,45),(39,40),(41,42)] true) (.node (.node (.node (.node
  (.wire 12) (.wire 20) [(12,20)] false) (.node (.wire 13) (.wire 19) [(13,19)] false) [(12,13),
  (19,20)] false) (.node (.node (.wire 14) (.wire 18) [(14,18)] false) (.node (.wire 17) (.wire
  21) [(17,21)] false) [(14,17),(18,21)] false) [(12,14),(13,18),(13,14)] false) (.node (.node
  (.wire 15) (.wire 23) [(15,23)] false) (.node (.wire 16) (.wire 22) [(16,22)] false) [(15,16),
  (22,23)] false) [(17,22),(21,23),(12,15),(16,18),(17,19),(20,23),(21,22),(13,16),(15,17),(18,
  20),(19,22),(13,15),(14,17),(18,21),(20,22),(14,15),(16,17),(18,19),(20,21),(16,18),(17,19),(15,
  16),(17,18),(19,20)] true) [(12,36),(19,43),(20,48),(17,41),(18,42)] false) (.node (.node
  (.node (.node (.node (.wire 0) (.wire 8) [(0,8)] false) (.node (.wire 1) (.wire 7) [(1,7)]
  false) [(0,1),(7,8)] false) (.node (.node (.wire 2) (.wire 6) [(2,6)] false) (.node (.wire 5)
  (.wire 9) [(5,9)] false) [(2,5),(6,9)] false) [(0,2),(1,6),(1,2)] false) (.node (.node (.wire
  3) (.wire 11) [(3,11)] false) (.node (.wire 4) (.wire 10) [(4,10)] false) [(3,4),(10,11)]
  false) [(5,10),(9,11),(0,3),(4,6),(5,7),(8,11),(9,10),(1,4),(3,5),(6,8),(7,10),(1,3),(2,5),(6,
  9),(8,10),(2,3),(4,5),(6,7),(8,9),(4,6),(5,7),(3,4),(5,6),(7,8)] true) (.node (.node (.node
  (.node (.wire 24) (.wire 32) [(24,32)] false) (.node (.wire 25) (.wire 31) [(25,31)] false)
  [(24,25),(31,32)] false) (.node (.node (.wire 26) (.wire 30) [(26,30)] false) (.node (.wire 29)
  (.wire 33) [(29,33)] false) [(26,29),(30,33)] false) [(24,26),(25,30),(25,26)] false) (.node
  (.node (.wire 27) (.wire 35) [(27,35)] false) (.node (.wire 28) (.wire 34) [(28,34)] false)
  [(27,28),(34,35)] false) [(29,34),(33,35),(24,27),(28,30),(29,31),(32,35),(33,34),(25,28),(27,
  29),(30,32),(31,34),(25,27),(26,29),(30,33),(32,34),(26,27),(28,29),(30,31),(32,33),(28,30),(29,
  31),(27,28),(29,30),(31,32)] true) [(0,24),(4,28),(5,29),(6,30),(7,31),(8,32)] false) [(11,23),
  (1,13),(10,22),(35,47),(0,12),(2,14),(9,21),(24,36),(34,46),(25,37),(3,15),(26,38),(33,45),(4,
  40),(7,19),(8,20),(16,28),(27,39),(31,43),(32,48),(5,17),(6,18),(29,41),(30,42),(11,35),(23,47),
  (10,34),(12,24),(22,46),(1,25),(13,37),(2,26),(9,33),(14,38),(21,45),(3,27),(15,39),(19,31),(20,
  32),(28,44),(36,40),(17,29),(18,30),(23,35),(22,34),(13,25),(9,37),(10,38),(14,26),(21,33),(8,
  28),(11,39),(15,27),(16,36),(20,40),(32,44),(35,43),(5,13),(6,14),(9,25),(10,26),(21,37),(22,
  38),(33,41),(34,42),(4,16),(7,15),(8,24),(11,27),(23,39),(28,36),(32,40),(43,46),(9,13),(10,14),
  (17,25),(18,26),(21,29),(22,30),(33,37),(34,38),(42,48),(4,12),(11,15),(19,27),(23,31),(24,28),
  (32,36),(35,39),(3,9),(13,17),(14,18),(21,25),(22,26),(29,33),(30,34),(38,44),(43,48),(1,4),(8,
  12),(15,19),(16,24),(20,28),(23,27),(31,35),(39,45),(3,5),(7,13),(11,17),(30,36),(34,40),(2,8),
  (12,16),(15,21),(19,25),(20,24),(23,29),(27,33),(28,32),(31,37),(35,41),(39,42),(45,48),(7,9),
  (34,36),(2,4),(6,12),(10,16),(14,20),(18,24),(19,21),(22,28),(23,25),(26,32),(29,30),(31,33),
  (35,38),(37,40),(39,44),(43,45),(46,48),(6,8),(10,12),(11,14),(13,16),(15,20),(17,18),(22,24),
  (26,28),(27,32),(31,34),(33,36),(35,37),(38,40),(41,44),(47,48),(3,6),(5,8),(7,10),(9,12),(11,
  13),(14,16),(15,17),(18,20),(19,22),(21,24),(23,26),(25,28),(27,29),(30,32),(33,34),(35,36),(37,
  38),(39,41),(42,44),(3,4),(5,6),(7,8),(9,10),(11,12),(13,14),(15,16),(17,18),(19,20),(21,22),
  (23,24),(25,26),(27,28),(29,30),(31,32),(39,40),(43,44)] false)

theorem net49_sorts01 : Sorts01 49 net49 :=
  sorts01_of_check (p := plan49) (by decide +kernel)

/-- Plan for `net50`. -/
def plan50 : Plan := (.node (.node (.node (.node (.node (.node (.wire 13) (.wire 22) [(13,22)]
  false) (.node (.wire 18) (.wire 20) [(18,20)] false) [(13,18),(20,22)] false) (.node (.node
  (.wire 14) (.wire 21) [(14,21)] false) (.node (.wire 15) (.wire 19) [(15,19)] false) [(14,15),
  (19,21)] false) [(13,14),(15,18),(19,20),(21,22)] false) (.node (.node (.node (.wire 17) (.wire
  23) [(17,23)] false) (.wire 16) [(16,23)] false) (.node (.wire 12) (.wire 24) [(12,24)] false)
  [(12,16),(23,24)] false) [(16,18),(17,21),(20,23),(22,24),(12,17),(15,20),(16,19),(18,23),(21,
  22),(12,13),(14,17),(18,21),(19,20),(22,23),(13,15),(14,16),(17,18),(21,22),(13,14),(15,16),(17,
  19),(18,20),(14,15),(16,17),(18,19),(20,21),(15,16),(17,18)] true) (.node (.node (.node (.node
  (.wire 38) (.wire 47) [(38,47)] false) (.node (.wire 43) (.wire 45) [(43,45)] false) [(38,43),
  (45,47)] false) (.node (.node (.wire 39) (.wire 46) [(39,46)] false) (.node (.wire 40) (.wire
  44) [(40,44)] false) [(39,40),(44,46)] false) [(38,39),(40,43),(44,45),(46,47)] false) (.node
  (.node (.node (.wire 42) (.wire 48) [(42,48)] false) (.wire 41) [(41,48)] false) (.node (.wire
  37) (.wire 49) [(37,49)] false) [(37,41),(48,49)] false) [(41,43),(42,46),(45,48),(47,49),(37,
  42),(40,45),(41,44),(43,48),(46,47),(37,38),(39,42),(43,46),(44,45),(47,48),(38,40),(39,41),(42,
  43),(46,47),(38,39),(40,41),(42,44),(43,45),(39,40),(41,42),(43,44),(45,46),(40,41),(42,43)]
  true) [(12,37),(19,44),(20,45),(16,41),(17,42),(18,43)] false) (.node (.node (.node (.node
  (.node (.wire 0) (.wire 8) [(0,8)] false) (.node (.wire 1) (.wire 7) [(1,7)] false) [(0,1),(7,
  8)] false) (.node (.node (.wire 2) (.wire 6) [(2,6)] false) (.node (.wire 5) (.wire 9) [(5,9)]
  false) [(2,5),(6,9)] false) [(0,2),(1,6),(1,2)] false) (.node (.node (.wire 3) (.wire 11) [(3,
  11)] false) (.node (.wire 4) (.wire 10) [(4,10)] false) [(3,4),(10,11)] false) [(5,10),(9,11),
  (0,3),(4,6),(5,7),(8,11),(9,10),(1,4),(3,5),(6,8),(7,10),(1,3),(2,5),(6,9),(8,10),(2,3),(4,5),
  (6,7),(8,9),(4,6),(5,7),(3,4),(5,6),(7,8)] true) (.node (.node (.node (.node (.wire 25) (.wire
  33) [(25,33)] false) (.node (.wire 26) (.wire 32) [(26,32)] false) [(25,26),(32,33)] false)
  (.node (.node (.wire 27) (.wire 31) [(27,31)] false) (.node (.wire 30) (.wire 34) [(30,34)]
  false) [(27,30),(31,34)] false) [(25,27),(26,31),(26,27)] false) (.node (.node (.wire 28)
  (.wire 36) [(28,36)] false) (.node (.wire 29) (.wire 35) [(29,35)] false) [(28,29),(35,36)]
  false) [(30,35),(34,36),(25,28),(29,31),(30,32),(33,36),(34,35),(26,29),(28,30),(31,33),(32,35),
  (26,28),(27,30),(31,34),(33,35),(27,28),(29,30),(31,32),(33,34),(29,31),(30,32),(28,29),(30,31),
  (32,33)] true) [(0,25),(4,29),(5,30),(6,31),(7,32)] false) [(11,23),(36,48),(0,12),(10,22),(35,
  47),(1,13),(26,38),(2,14),(8,49),(9,21),(24,33),(27,39),(34,46),(3,15),(4,37),(7,19),(28,40),
  (29,45),(32,44),(5,17),(6,18),(16,25),(30,42),(31,43),(11,36),(23,48),(10,35),(22,47),(1,26),
  (13,38),(2,27),(8,24),(9,34),(14,39),(21,46),(33,49),(3,28),(4,12),(15,40),(19,32),(20,29),(17,
  30),(18,31),(25,41),(23,36),(22,35),(13,26),(9,38),(10,39),(14,27),(21,34),(24,33),(48,49),(8,
  16),(11,40),(12,20),(15,28),(29,37),(36,44),(5,13),(6,14),(9,26),(10,27),(21,38),(22,39),(33,
  45),(34,42),(35,43),(47,48),(4,8),(7,15),(11,28),(16,25),(20,29),(23,40),(24,41),(9,13),(10,14),
  (17,26),(18,27),(21,30),(22,31),(34,38),(35,39),(43,45),(1,4),(8,12),(11,15),(16,20),(19,28),
  (23,32),(24,25),(33,41),(36,40),(3,9),(13,17),(14,18),(21,26),(22,27),(30,34),(31,35),(2,8),(12,
  16),(15,19),(23,28),(24,29),(25,37),(32,36),(39,41),(40,46),(7,13),(11,17),(2,4),(5,8),(6,12),
  (10,16),(15,21),(19,26),(20,24),(23,30),(25,29),(28,34),(32,38),(33,37),(36,42),(40,43),(45,46),
  (11,13),(6,8),(7,10),(9,12),(14,20),(18,24),(22,25),(27,29),(31,33),(35,37),(36,39),(41,42),(44,
  46),(3,6),(7,12),(14,16),(15,18),(17,20),(19,24),(21,22),(23,25),(26,27),(28,29),(30,31),(32,
  35),(33,34),(37,38),(40,41),(42,43),(44,47),(3,5),(6,8),(7,9),(10,12),(11,14),(13,16),(15,17),
  (18,20),(19,21),(22,24),(23,26),(25,27),(28,30),(29,31),(32,33),(34,35),(36,37),(38,39),(41,42),
  (44,45),(46,47),(3,4),(7,8),(11,12),(13,14),(15,16),(17,18),(19,20),(21,22),(23,24),(25,26),(27,
  28),(29,30),(31,32),(33,34),(35,36),(37,38),(39,40),(43,44),(47,48)] false)

theorem net50_sorts01 : Sorts01 50 net50 :=
  sorts01_of_check (p := plan50) (by decide +kernel)

/-- Plan for `net51`. -/
def plan51 : Plan := (.node (.node (.node (.node (.node (.node (.wire 26) (.wire 35) [(26,35)]
  false) (.node (.wire 31) (.wire 33) [(31,33)] false) [(26,31),(33,35)] false) (.node (.node
  (.wire 27) (.wire 34) [(27,34)] false) (.node (.wire 28) (.wire 32) [(28,32)] false) [(27,28),
  (32,34)] false) [(26,27),(28,31),(32,33),(34,35)] false) (.node (.node (.node (.wire 30) (.wire
  36) [(30,36)] false) (.wire 29) [(29,36)] false) (.node (.wire 25) (.wire 37) [(25,37)] false)
  [(25,29),(36,37)] false) [(29,31),(30,34),(33,36),(35,37),(25,30),(28,33),(29,32),(31,36),(34,
  35),(25,26),(27,30),(31,34),(32,33),(35,36),(26,28),(27,29),(30,31),(34,35),(26,27),(28,29),(30,
  32),(31,33),(27,28),(29,30),(31,32),(33,34),(28,29),(30,31)] true) (.node (.node (.node (.node
  (.wire 39) (.wire 48) [(39,48)] false) (.node (.wire 44) (.wire 46) [(44,46)] false) [(39,44),
  (46,48)] false) (.node (.node (.wire 40) (.wire 47) [(40,47)] false) (.node (.wire 41) (.wire
  45) [(41,45)] false) [(40,41),(45,47)] false) [(39,40),(41,44),(45,46),(47,48)] false) (.node
  (.node (.node (.wire 43) (.wire 49) [(43,49)] false) (.wire 42) [(42,49)] false) (.node (.wire
  38) (.wire 50) [(38,50)] false) [(38,42),(49,50)] false) [(42,44),(43,47),(46,49),(48,50),(38,
  43),(41,46),(42,45),(44,49),(47,48),(38,39),(40,43),(44,47),(45,46),(48,49),(39,41),(40,42),(43,
  44),(47,48),(39,40),(41,42),(43,45),(44,46),(40,41),(42,43),(44,45),(46,47),(41,42),(43,44)]
  true) [(37,50),(36,49),(35,48),(26,39),(27,40),(34,47),(28,41)] false) (.node (.node (.node
  (.node (.node (.wire 13) (.wire 22) [(13,22)] false) (.node (.wire 18) (.wire 20) [(18,20)]
  false) [(13,18),(20,22)] false) (.node (.node (.wire 14) (.wire 21) [(14,21)] false) (.node
  (.wire 15) (.wire 19) [(15,19)] false) [(14,15),(19,21)] false) [(13,14),(15,18),(19,20),(21,
  22)] false) (.node (.node (.node (.wire 17) (.wire 23) [(17,23)] false) (.wire 16) [(16,23)]
  false) (.node (.wire 12) (.wire 24) [(12,24)] false) [(12,16),(23,24)] false) [(16,18),(17,21),
  (20,23),(22,24),(12,17),(15,20),(16,19),(18,23),(21,22),(12,13),(14,17),(18,21),(19,20),(22,23),
  (13,15),(14,16),(17,18),(21,22),(13,14),(15,16),(17,19),(18,20),(14,15),(16,17),(18,19),(20,21),
  (15,16),(17,18)] true) (.node (.node (.node (.node (.wire 0) (.wire 8) [(0,8)] false) (.node
  (.wire 1) (.wire 7) [(1,7)] false) [(0,1),(7,8)] false) (.node (.node (.wire 2) (.wire 6) [(2,
  6)] false) (.node (.wire 5) (.wire 9) [(5,9)] false) [(2,5),(6,9)] false) [(0,2),(1,6),(1,2)]
  false) (.node (.node (.wire 3) (.wire 11) [(3,11)] false) (.node (.wire 4) (.wire 10) [(4,10)]
  false) [(3,4),(10,11)] false) [(5,10),(9,11),(0,3),(4,6),(5,7),(8,11),(9,10),(1,4),(3,5),(6,8),
  (7,10),(1,3),(2,5),(6,9),(8,10),(2,3),(4,5),(6,7),(8,9),(4,6),(5,7),(3,4),(5,6),(7,8)] true)
  [(11,23),(10,22),(1,13),(2,14),(8,24),(9,21),(3,15)] false) [(12,38),(11,36),(23,49),(10,35),
  (22,48),(1,26),(4,33),(7,32),(13,39),(19,45),(20,46),(0,29),(2,27),(5,30),(6,31),(8,37),(9,34),
  (14,40),(16,42),(17,43),(18,44),(21,47),(24,50),(3,28),(15,41),(12,25),(23,36),(22,35),(4,38),
  (7,19),(13,26),(32,45),(33,46),(0,16),(5,17),(6,18),(9,39),(10,40),(14,27),(21,34),(24,37),(29,
  42),(30,43),(31,44),(49,50),(11,41),(15,28),(20,25),(19,32),(33,38),(36,45),(0,12),(5,13),(6,
  14),(8,29),(9,26),(10,27),(17,30),(18,31),(21,39),(22,40),(24,42),(34,43),(35,44),(37,46),(7,
  15),(11,28),(23,41),(4,20),(25,33),(9,13),(10,14),(16,29),(17,26),(18,27),(21,30),(22,31),(34,
  39),(35,40),(37,42),(46,48),(11,15),(19,28),(23,32),(36,41),(4,12),(20,25),(33,38),(3,9),(8,16),
  (13,17),(14,18),(21,26),(22,27),(24,29),(30,34),(31,35),(42,45),(48,49),(15,19),(23,28),(32,36),
  (41,47),(1,4),(7,13),(8,20),(11,17),(16,25),(24,33),(29,38),(42,44),(15,21),(19,26),(23,30),(28,
  34),(32,39),(36,43),(46,47),(8,12),(16,20),(24,25),(29,33),(37,38),(32,34),(41,43),(44,46),(45,
  47),(2,8),(6,12),(10,16),(14,20),(18,24),(22,25),(27,29),(31,33),(35,37),(38,40),(45,46),(47,
  48),(2,4),(3,8),(5,6),(7,10),(9,12),(11,14),(13,16),(15,20),(17,18),(19,22),(21,24),(23,27),(25,
  26),(28,31),(29,30),(33,35),(36,38),(37,39),(40,42),(3,5),(6,8),(7,12),(11,16),(15,17),(18,20),
  (19,24),(23,25),(26,27),(28,29),(30,31),(32,33),(34,35),(36,39),(40,41),(42,43),(3,4),(5,6),(7,
  9),(10,12),(11,13),(14,16),(17,18),(19,21),(22,24),(25,26),(27,28),(29,30),(31,32),(33,34),(36,
  37),(38,39),(41,42),(43,44),(7,8),(11,12),(15,16),(19,20),(23,24),(35,36),(39,40)] false)

theorem net51_sorts01 : Sorts01 51 net51 :=
  sorts01_of_check (p := plan51) (by decide +kernel)

/-- Plan for the strands of `net52`. -/
def plan52 : Plan := (.node (.node (.node (.node (.node (.node (.node (.wire 4) (.wire 40) [(4,
  40)] false) (.node (.wire 24) (.wire 32) [(24,32)] false) [(4,24),(32,40)] false) (.node (.node
  (.wire 8) (.wire 36) [(8,36)] false) (.node (.wire 12) (.wire 28) [(12,28)] false) [(8,12),(28,
  36)] false) [(4,8),(12,24),(28,32),(36,40)] false) (.node (.node (.node (.wire 20) (.wire 44)
  [(20,44)] false) (.wire 16) [(16,44)] false) (.node (.wire 0) (.wire 48) [(0,48)] false) [(0,
  16),(44,48)] false) [(16,24),(20,36),(32,44),(40,48),(0,20),(12,32),(16,28),(24,44),(36,40),(0,
  4),(8,20),(24,36),(28,32),(40,44),(4,12),(8,16),(20,24),(36,40),(4,8),(12,16),(20,28),(24,32),
  (8,12),(16,20),(24,28),(32,36),(12,16),(20,24)] true) (.node (.node (.node (.node (.wire 5)
  (.wire 41) [(5,41)] false) (.node (.wire 25) (.wire 33) [(25,33)] false) [(5,25),(33,41)]
  false) (.node (.node (.wire 9) (.wire 37) [(9,37)] false) (.node (.wire 13) (.wire 29) [(13,
  29)] false) [(9,13),(29,37)] false) [(5,9),(13,25),(29,33),(37,41)] false) (.node (.node (.node
  (.wire 21) (.wire 45) [(21,45)] false) (.wire 17) [(17,45)] false) (.node (.wire 1) (.wire 49)
  [(1,49)] false) [(1,17),(45,49)] false) [(17,25),(21,37),(33,45),(41,49),(1,21),(13,33),(17,29),
  (25,45),(37,41),(1,5),(9,21),(25,37),(29,33),(41,45),(5,13),(9,17),(21,25),(37,41),(5,9),(13,
  17),(21,29),(25,33),(9,13),(17,21),(25,29),(33,37),(13,17),(21,25)] true) [] false) (.node
  (.node (.node (.node (.wire 10) (.wire 46) [(10,46)] false) (.node (.wire 18) (.wire 26) [(18,
  26)] false) [(10,18),(26,46)] false) (.node (.node (.wire 14) (.wire 42) [(14,42)] false)
  (.node (.wire 22) (.wire 38) [(22,38)] false) [(14,22),(38,42)] false) [(10,14),(18,22),(26,38),
  (42,46)] false) (.node (.node (.node (.wire 6) (.wire 30) [(6,30)] false) (.wire 34) [(6,34)]
  false) (.node (.wire 2) (.wire 50) [(2,50)] false) [(2,6),(34,50)] false) [(2,10),(6,18),(14,
  30),(26,34),(6,26),(10,14),(18,38),(22,34),(30,50),(6,10),(14,26),(18,22),(30,42),(46,50),(10,
  14),(26,30),(34,42),(38,46),(18,26),(22,30),(34,38),(42,46),(14,18),(22,26),(30,34),(38,42),(26,
  30),(34,38)] true) [] false) (.node (.node (.node (.node (.wire 11) (.wire 47) [(11,47)] false)
  (.node (.wire 19) (.wire 27) [(19,27)] false) [(11,19),(27,47)] false) (.node (.node (.wire 15)
  (.wire 43) [(15,43)] false) (.node (.wire 23) (.wire 39) [(23,39)] false) [(15,23),(39,43)]
  false) [(11,15),(19,23),(27,39),(43,47)] false) (.node (.node (.node (.wire 7) (.wire 31) [(7,
  31)] false) (.wire 35) [(7,35)] false) (.node (.wire 3) (.wire 51) [(3,51)] false) [(3,7),(35,
  51)] false) [(3,11),(7,19),(15,31),(27,35),(7,27),(11,15),(19,39),(23,35),(31,51),(7,11),(15,
  27),(19,23),(31,43),(47,51),(11,15),(27,31),(35,43),(39,47),(19,27),(23,31),(35,39),(43,47),(15,
  19),(23,27),(31,35),(39,43),(27,31),(35,39)] true) [] false)

/-- The first two strands of `net52`. -/
def strandS52 : List (Nat × Nat) := [
  (0, 12), (1, 10), (2, 9), (3, 7), (5, 11), (6, 8), (1, 6), (2, 3), (4, 11), (7, 9), (8, 10),
  (0, 4), (1, 2), (3, 6), (7, 8), (9, 10), (11, 12), (4, 6), (5, 9), (8, 11), (10, 12), (0, 5),
  (3, 8), (4, 7), (6, 11), (9, 10), (0, 1), (2, 5), (6, 9), (7, 8), (10, 11), (1, 3), (2, 4),
  (5, 6), (9, 10), (1, 2), (3, 4), (5, 7), (6, 8), (2, 3), (4, 5), (6, 7), (8, 9), (3, 4),
  (5, 6)]

/-- Plan for `strandS52`. -/
def planS52 : Plan := (.node (.node (.node (.node (.wire 1) (.wire 10) [(1,10)] false) (.node
  (.wire 6) (.wire 8) [(6,8)] false) [(1,6),(8,10)] false) (.node (.node (.wire 2) (.wire 9) [(2,
  9)] false) (.node (.wire 3) (.wire 7) [(3,7)] false) [(2,3),(7,9)] false) [(1,2),(3,6),(7,8),(9,
  10)] false) (.node (.node (.node (.wire 5) (.wire 11) [(5,11)] false) (.wire 4) [(4,11)] false)
  (.node (.wire 0) (.wire 12) [(0,12)] false) [(0,4),(11,12)] false) [(4,6),(5,9),(8,11),(10,12),
  (0,5),(3,8),(4,7),(6,11),(9,10),(0,1),(2,5),(6,9),(7,8),(10,11),(1,3),(2,4),(5,6),(9,10),(1,2),
  (3,4),(5,7),(6,8),(2,3),(4,5),(6,7),(8,9),(3,4),(5,6)] false)

theorem strandS52_sorts01 : Sorts01 13 strandS52 :=
  sorts01_of_check (p := planS52) (by decide +kernel)

/-- The last two strands of `net52`. -/
def strandT52 : List (Nat × Nat) := [
  (0, 12), (1, 7), (2, 11), (3, 10), (4, 6), (5, 9), (1, 8), (2, 4), (3, 5), (6, 11), (9, 10),
  (0, 1), (2, 3), (4, 5), (6, 9), (8, 12), (10, 11), (0, 2), (1, 4), (3, 7), (6, 8), (1, 6),
  (2, 3), (4, 9), (5, 8), (7, 12), (1, 2), (3, 6), (4, 5), (7, 10), (11, 12), (2, 3), (6, 7),
  (8, 10), (9, 11), (4, 6), (5, 7), (8, 9), (10, 11), (3, 4), (5, 6), (7, 8), (9, 10), (6, 7),
  (8, 9)]

/-- Plan for `strandT52`. -/
def planT52 : Plan := (.node (.node (.node (.node (.wire 2) (.wire 11) [(2,11)] false) (.node
  (.wire 4) (.wire 6) [(4,6)] false) [(2,4),(6,11)] false) (.node (.node (.wire 3) (.wire 10) [(3,
  10)] false) (.node (.wire 5) (.wire 9) [(5,9)] false) [(3,5),(9,10)] false) [(2,3),(4,5),(6,9),
  (10,11)] false) (.node (.node (.node (.wire 1) (.wire 7) [(1,7)] false) (.wire 8) [(1,8)]
  false) (.node (.wire 0) (.wire 12) [(0,12)] false) [(0,1),(8,12)] false) [(0,2),(1,4),(3,7),(6,
  8),(1,6),(2,3),(4,9),(5,8),(7,12),(1,2),(3,6),(4,5),(7,10),(11,12),(2,3),(6,7),(8,10),(9,11),(4,
  6),(5,7),(8,9),(10,11),(3,4),(5,6),(7,8),(9,10),(6,7),(8,9)] false)

theorem strandT52_sorts01 : Sorts01 13 strandT52 :=
  sorts01_of_check (p := planT52) (by decide +kernel)

/-- The last part of `net52`. -/
def rest52 : List (Nat × Nat) := [
  (10, 40), (11, 41), (2, 32), (7, 36), (11, 40), (15, 44), (19, 49), (1, 16), (3, 33),
  (5, 12), (9, 24), (10, 32), (14, 15), (18, 48), (19, 41), (27, 42), (35, 50), (36, 37),
  (39, 46), (1, 4), (2, 16), (3, 18), (6, 21), (11, 25), (13, 28), (15, 29), (17, 32),
  (19, 34), (22, 36), (23, 38), (26, 40), (30, 45), (33, 48), (35, 49), (47, 50), (2, 8),
  (3, 24), (6, 20), (7, 21), (10, 17), (12, 13), (14, 28), (18, 32), (19, 33), (23, 37),
  (27, 48), (30, 44), (31, 45), (34, 41), (38, 39), (43, 49), (2, 4), (3, 16), (6, 12),
  (7, 20), (11, 24), (15, 28), (19, 25), (21, 22), (23, 36), (26, 32), (27, 40), (29, 30),
  (31, 44), (35, 48), (39, 45), (47, 49), (3, 9), (7, 13), (10, 16), (11, 17), (14, 20),
  (15, 21), (18, 24), (19, 26), (22, 28), (23, 29), (25, 32), (27, 33), (30, 36), (31, 37),
  (34, 40), (35, 41), (38, 44), (42, 48), (3, 8), (7, 9), (10, 12), (11, 13), (14, 16),
  (15, 17), (18, 20), (19, 22), (21, 24), (23, 25), (26, 28), (27, 30), (29, 32), (31, 33),
  (34, 36), (35, 37), (38, 40), (39, 41), (42, 44), (43, 48), (3, 5), (6, 8), (7, 10), (9, 12),
  (11, 14), (13, 16), (15, 18), (17, 20), (19, 21), (22, 24), (23, 26), (25, 28), (27, 29),
  (30, 32), (31, 34), (33, 36), (35, 38), (37, 40), (39, 42), (41, 44), (43, 45), (46, 48),
  (3, 4), (5, 6), (7, 8), (9, 10), (11, 12), (13, 14), (15, 16), (17, 18), (19, 20), (21, 22),
  (23, 24), (25, 26), (27, 28), (29, 30), (31, 32), (33, 34), (35, 36), (37, 38), (39, 40),
  (41, 42), (43, 44), (45, 46), (47, 48)]

theorem net52_sorts01 : Sorts01 52 net52 :=
  sorts01_of_strands (k := 13) (p := plan52) (rest := rest52) strandS52_sorts01 strandT52_sorts01
    (by decide +kernel)

/-- Plan for `net53`. -/
def plan53 : Plan := (.node (.node (.node (.node (.node (.node (.wire 40) (.wire 50) [(40,50)]
  false) (.node (.wire 41) (.wire 51) [(41,51)] false) [(40,41),(50,51)] false) (.node (.node
  (.wire 42) (.wire 49) [(42,49)] false) (.node (.wire 46) (.wire 52) [(46,52)] false) [(42,46)]
  false) [(40,42)] false) (.node (.node (.node (.wire 43) (.wire 44) [(43,44)] false) (.node
  (.wire 47) (.wire 48) [(47,48)] false) [(43,47),(44,48)] false) (.node (.wire 39) (.wire 45)
  [(39,45)] false) [(39,43)] false) [(45,49),(46,47),(48,52),(39,40),(43,50),(44,45),(49,51),(41,
  48),(42,46),(47,50),(45,49),(51,52),(41,44),(43,46),(45,48),(40,41),(42,43),(50,51),(45,46),(48,
  49),(40,42),(41,43),(44,45),(46,47),(48,50),(49,51),(41,42),(43,46),(45,48),(49,50),(43,44),(45,
  46),(47,48),(42,43),(44,45),(46,47),(48,49)] true) (.node (.node (.node (.node (.wire 27)
  (.wire 36) [(27,36)] false) (.node (.wire 32) (.wire 34) [(32,34)] false) [(27,32),(34,36)]
  false) (.node (.node (.wire 28) (.wire 35) [(28,35)] false) (.node (.wire 29) (.wire 33) [(29,
  33)] false) [(28,29),(33,35)] false) [(27,28),(29,32),(33,34),(35,36)] false) (.node (.node
  (.node (.wire 31) (.wire 37) [(31,37)] false) (.wire 30) [(30,37)] false) (.node (.wire 26)
  (.wire 38) [(26,38)] false) [(26,30),(37,38)] false) [(30,32),(31,35),(34,37),(36,38),(26,31),
  (29,34),(30,33),(32,37),(35,36),(26,27),(28,31),(32,35),(33,34),(36,37),(27,29),(28,30),(31,32),
  (35,36),(27,28),(29,30),(31,33),(32,34),(28,29),(30,31),(32,33),(34,35),(29,30),(31,32)] true)
  [(37,50),(28,41),(29,42),(36,49)] false) (.node (.node (.node (.node (.node (.wire 1) (.wire
  10) [(1,10)] false) (.node (.wire 6) (.wire 8) [(6,8)] false) [(1,6),(8,10)] false) (.node
  (.node (.wire 2) (.wire 9) [(2,9)] false) (.node (.wire 3) (.wire 7) [(3,7)] false) [(2,3),(7,
  9)] false) [(1,2),(3,6),(7,8),(9,10)] false) (.node (.node (.node (.wire 5) (.wire 11) [(5,11)]
  false) (.wire 4) [(4,11)] false) (.node (.wire 0) (.wire 12) [(0,12)] false) [(0,4),(11,12)]
  false) [(4,6),(5,9),(8,11),(10,12),(0,5),(3,8),(4,7),(6,11),(9,10),(0,1),(2,5),(6,9),(7,8),(10,
  11),(1,3),(2,4),(5,6),(9,10),(1,2),(3,4),(5,7),(6,8),(2,3),(4,5),(6,7),(8,9),(3,4),(5,6)] true)
  (.node (.node (.node (.node (.wire 14) (.wire 23) [(14,23)] false) (.node (.wire 19) (.wire 21)
  [(19,21)] false) [(14,19),(21,23)] false) (.node (.node (.wire 15) (.wire 22) [(15,22)] false)
  (.node (.wire 16) (.wire 20) [(16,20)] false) [(15,16),(20,22)] false) [(14,15),(16,19),(20,21),
  (22,23)] false) (.node (.node (.node (.wire 18) (.wire 24) [(18,24)] false) (.wire 17) [(17,
  24)] false) (.node (.wire 13) (.wire 25) [(13,25)] false) [(13,17),(24,25)] false) [(17,19),(18,
  22),(21,24),(23,25),(13,18),(16,21),(17,20),(19,24),(22,23),(13,14),(15,18),(19,22),(20,21),(23,
  24),(14,16),(15,17),(18,19),(22,23),(14,15),(16,17),(18,20),(19,21),(15,16),(17,18),(19,20),(21,
  22),(16,17),(18,19)] true) [(11,24),(10,23),(2,15),(3,16)] false) [(25,38),(0,26),(13,39),(12,
  51),(1,27),(14,40),(7,33),(8,34),(9,35),(11,37),(22,52),(24,50),(2,28),(4,43),(5,31),(6,32),(15,
  41),(17,30),(19,45),(20,46),(21,47),(3,29),(10,36),(16,42),(23,49),(0,13),(26,39),(12,25),(38,
  51),(1,14),(27,40),(9,22),(24,37),(35,52),(4,17),(5,44),(6,19),(7,20),(8,21),(15,28),(18,31),
  (30,43),(32,45),(33,46),(34,47),(10,41),(11,42),(16,29),(23,36),(13,26),(25,38),(14,27),(22,35),
  (6,15),(12,17),(19,32),(20,33),(21,34),(31,48),(37,46),(40,44),(7,16),(10,28),(11,29),(23,41),
  (24,42),(36,45),(4,13),(8,26),(25,43),(38,47),(9,31),(17,30),(18,40),(21,39),(22,44),(35,48),
  (10,15),(11,16),(19,28),(20,29),(23,32),(24,33),(36,41),(37,42),(1,4),(8,13),(38,43),(47,52),(5,
  18),(9,27),(12,21),(17,26),(25,39),(30,34),(31,40),(35,44),(15,19),(16,20),(23,28),(24,29),(32,
  36),(33,37),(42,48),(2,8),(43,49),(46,47),(5,14),(12,17),(21,26),(25,30),(27,31),(34,39),(35,
  40),(37,44),(2,4),(49,50),(5,8),(9,14),(12,13),(17,21),(18,27),(22,31),(25,26),(30,34),(33,40),
  (38,39),(43,48),(47,49),(50,52),(3,9),(6,12),(10,13),(14,18),(15,17),(19,21),(22,27),(23,25),
  (26,28),(30,32),(31,35),(34,36),(38,41),(39,45),(49,50),(51,52),(3,6),(7,14),(10,12),(11,18),
  (16,22),(20,27),(24,31),(25,26),(29,35),(32,33),(36,37),(38,40),(39,42),(41,44),(45,46),(3,8),
  (7,9),(11,15),(13,14),(16,19),(17,18),(20,23),(21,22),(24,27),(28,31),(29,30),(34,35),(36,38),
  (37,40),(39,44),(43,45),(46,48),(3,5),(6,8),(7,10),(9,12),(11,13),(14,15),(16,17),(18,19),(20,
  21),(22,23),(24,25),(26,27),(28,29),(30,31),(32,34),(33,35),(37,38),(39,41),(42,44),(45,46),(47,
  48),(3,4),(7,8),(9,10),(11,12),(13,14),(15,16),(17,18),(19,20),(21,22),(23,24),(25,26),(27,28),
  (29,30),(31,32),(33,34),(35,36),(39,40),(43,44)] false)

theorem net53_sorts01 : Sorts01 53 net53 :=
  sorts01_of_check (p := plan53) (by decide +kernel)

/-- Plan for `net54`. -/
def plan54 : Plan := (.node (.node (.node (.node (.node (.node (.wire 2) (.wire 15) [(2,15)]
  false) (.node (.wire 9) (.wire 10) [(9,10)] false) [(2,9),(10,15)] false) (.node (.node (.wire
  3) (.wire 14) [(3,14)] false) (.node (.wire 4) (.wire 8) [(4,8)] false) [(3,4),(8,14)] false)
  [(2,3),(14,15)] true) (.node (.node (.node (.wire 0) (.wire 13) [(0,13)] false) (.node (.wire
  5) (.wire 6) [(5,6)] false) [(0,5),(6,13)] false) (.node (.node (.wire 1) (.wire 12) [(1,12)]
  false) (.node (.wire 7) (.wire 11) [(7,11)] false) [(1,7),(11,12)] false) [(0,1),(12,13)] true)
  [(4,5),(6,8),(7,9),(10,11),(0,2),(1,3),(12,14),(13,15),(4,10),(5,11),(6,7),(8,9),(1,2),(3,12),
  (13,14),(4,6),(5,7),(8,10),(9,11),(1,4),(2,6),(5,8),(7,10),(9,13),(11,14),(2,4),(3,6),(9,12),
  (11,13),(3,5),(6,8),(7,9),(10,12),(3,4),(5,6),(7,8),(9,10),(11,12),(6,7),(8,9)] true) (.node
  (.node (.node (.node (.wire 40) (.wire 53) [(40,53)] false) (.node (.wire 47) (.wire 48) [(47,
  48)] false) [(40,47),(48,53)] false) (.node (.node (.wire 41) (.wire 52) [(41,52)] false)
  (.node (.wire 42) (.wire 46) [(42,46)] false) [(41,42),(46,52)] false) [(40,41),(52,53)] true)
  (.node (.node (.node (.wire 38) (.wire 51) [(38,51)] false) (.node (.wire 43) (.wire 44) [(43,
  44)] false) [(38,43),(44,51)] false) (.node (.node (.wire 39) (.wire 50) [(39,50)] false)
  (.node (.wire 45) (.wire 49) [(45,49)] false) [(39,45),(49,50)] false) [(38,39),(50,51)] true)
  [(42,43),(44,46),(45,47),(48,49),(38,40),(39,41),(50,52),(51,53),(42,48),(43,49),(44,45),(46,
  47),(39,40),(41,50),(51,52),(42,44),(43,45),(46,48),(47,49),(39,42),(40,44),(43,46),(45,48),(47,
  51),(49,52),(40,42),(41,44),(47,50),(49,51),(41,43),(44,46),(45,47),(48,50),(41,42),(43,44),(45,
  46),(47,48),(49,50),(44,45),(46,47)] true) [(0,38),(15,53),(1,39),(14,52),(2,40),(13,51),(3,41),
  (4,42),(5,43),(10,48),(11,49),(12,50),(6,44),(7,45),(8,46),(9,47)] false) (.node (.node (.node
  (.node (.wire 25) (.wire 27) [(25,27)] false) (.node (.wire 26) (.wire 28) [(26,28)] false)
  [(25,26),(27,28)] false) (.node (.wire 24) (.wire 29) [(24,29)] false) [(24,27),(26,29),(24,25),
  (26,27),(28,29),(25,26),(27,28)] false) (.node (.node (.node (.node (.wire 18) (.wire 37) [(18,
  37)] false) (.node (.wire 31) (.wire 32) [(31,32)] false) [(18,31),(32,37)] false) (.node
  (.node (.wire 19) (.wire 36) [(19,36)] false) (.node (.wire 20) (.wire 30) [(20,30)] false)
  [(19,20),(30,36)] false) [(18,19),(36,37)] true) (.node (.node (.node (.wire 16) (.wire 35)
  [(16,35)] false) (.node (.wire 21) (.wire 22) [(21,22)] false) [(16,21),(22,35)] false) (.node
  (.node (.wire 17) (.wire 34) [(17,34)] false) (.node (.wire 23) (.wire 33) [(23,33)] false)
  [(17,23),(33,34)] false) [(16,17),(34,35)] true) [(20,21),(22,30),(23,31),(32,33),(16,18),(17,
  19),(34,36),(35,37),(20,32),(21,33),(22,23),(30,31),(17,18),(19,34),(35,36),(20,22),(21,23),(30,
  32),(31,33),(17,20),(18,22),(21,30),(23,32),(31,35),(33,36),(18,20),(19,22),(31,34),(33,35),(19,
  21),(22,30),(23,31),(32,34),(19,20),(21,22),(23,30),(31,32),(33,34),(22,23),(30,31)] true) [(16,
  24),(29,37),(18,26),(27,35),(19,25),(28,34)] true) [(0,16),(15,29),(24,38),(37,53),(1,17),(36,
  52),(2,18),(13,27),(26,40),(35,51),(3,19),(4,20),(10,32),(12,28),(21,43),(25,41),(33,49),(34,
  50),(6,22),(31,47),(16,24),(29,37),(13,39),(14,40),(18,26),(27,35),(15,23),(30,38),(1,3),(4,12),
  (11,33),(19,25),(20,42),(28,34),(41,49),(50,52),(2,24),(29,51),(13,17),(36,40),(7,15),(8,30),
  (10,26),(14,32),(21,39),(23,45),(27,43),(38,46),(1,16),(6,18),(11,25),(12,20),(28,42),(33,41),
  (35,47),(37,52),(9,17),(36,44),(3,13),(5,21),(7,19),(8,24),(14,26),(15,23),(27,39),(29,45),(30,
  38),(32,48),(34,46),(40,50),(4,16),(10,18),(20,28),(25,33),(35,43),(37,49),(17,31),(22,36),(5,
  13),(11,19),(23,29),(24,30),(34,42),(40,48),(2,4),(8,16),(15,25),(28,38),(37,45),(49,51),(14,
  22),(17,21),(31,39),(32,36),(12,24),(20,30),(23,33),(29,41),(3,8),(45,50),(9,17),(21,27),(26,
  32),(36,44),(12,16),(14,20),(18,24),(22,28),(25,31),(29,35),(33,39),(37,41),(3,4),(49,50),(9,
  13),(15,17),(19,21),(23,27),(26,30),(32,34),(36,38),(40,44),(6,12),(10,16),(14,18),(20,24),(29,
  33),(35,39),(37,43),(41,47),(7,9),(11,13),(15,19),(17,21),(22,26),(23,25),(27,31),(28,30),(32,
  36),(34,38),(40,42),(44,46),(6,8),(10,12),(14,16),(18,20),(33,35),(37,39),(41,43),(45,47),(5,7),
  (9,11),(13,15),(17,19),(21,23),(22,24),(25,27),(26,28),(29,31),(30,32),(34,36),(38,40),(42,44),
  (46,48),(5,8),(7,10),(9,12),(11,14),(13,16),(15,18),(17,20),(19,22),(21,24),(23,26),(25,28),(27,
  30),(29,32),(31,34),(33,36),(35,38),(37,40),(39,42),(41,44),(43,46),(45,48),(5,6),(7,8),(9,10),
  (11,12),(13,14),(15,16),(17,18),(19,20),(21,22),(23,24),(25,26),(27,28),(29,30),(31,32),(33,34),
  (35,36),(37,38),(39,40),(41,42),(43,44),(45,46),(47,48)] false)

theorem net54_sorts01 : Sorts01 54 net54 :=
  sorts01_of_check (p := plan54) (by decide +kernel)

/-- Plan for `net55`. -/
def plan55 : Plan := (.node (.node (.node (.node (.node (.node (.wire 15) (.wire 18) [(15,18)]
  false) (.node (.wire 33) (.wire 34) [(33,34)] false) [(15,33),(18,34)] false) (.node (.node
  (.wire 19) (.wire 38) [(19,38)] false) (.node (.wire 20) (.wire 32) [(20,32)] false) [(19,20),
  (32,38)] false) [(15,19),(34,38)] true) (.node (.node (.node (.wire 16) (.wire 37) [(16,37)]
  false) (.node (.wire 21) (.wire 22) [(21,22)] false) [(16,21),(22,37)] false) (.node (.node
  (.wire 17) (.wire 36) [(17,36)] false) (.node (.wire 23) (.wire 35) [(23,35)] false) [(17,23),
  (35,36)] false) [(16,17),(36,37)] true) [(18,35),(20,21),(22,32),(23,33),(15,16),(17,19),(34,
  36),(37,38),(18,20),(21,35),(22,23),(32,33),(16,17),(19,34),(36,37),(18,22),(20,32),(21,23),(33,
  35),(16,18),(17,22),(20,21),(23,32),(33,36),(35,37),(17,18),(19,22),(33,34),(35,36),(19,20),(21,
  22),(23,33),(32,34),(18,19),(20,21),(22,23),(32,33),(34,35),(21,22),(23,32)] true) (.node
  (.node (.node (.node (.wire 39) (.wire 42) [(39,42)] false) (.node (.wire 49) (.wire 50) [(49,
  50)] false) [(39,49),(42,50)] false) (.node (.node (.wire 43) (.wire 54) [(43,54)] false)
  (.node (.wire 44) (.wire 48) [(44,48)] false) [(43,44),(48,54)] false) [(39,43),(50,54)] true)
  (.node (.node (.node (.wire 40) (.wire 53) [(40,53)] false) (.node (.wire 45) (.wire 46) [(45,
  46)] false) [(40,45),(46,53)] false) (.node (.node (.wire 41) (.wire 52) [(41,52)] false)
  (.node (.wire 47) (.wire 51) [(47,51)] false) [(41,47),(51,52)] false) [(40,41),(52,53)] true)
  [(42,51),(44,45),(46,48),(47,49),(39,40),(41,43),(50,52),(53,54),(42,44),(45,51),(46,47),(48,
  49),(40,41),(43,50),(52,53),(42,46),(44,48),(45,47),(49,51),(40,42),(41,46),(44,45),(47,48),(49,
  52),(51,53),(41,42),(43,46),(49,50),(51,52),(43,44),(45,46),(47,49),(48,50),(42,43),(44,45),(46,
  47),(48,49),(50,51),(45,46),(47,48)] true) [(15,39),(37,53),(17,41),(18,42),(22,46),(32,48)]
  false) (.node (.node (.node (.node (.node (.wire 1) (.wire 12) [(1,12)] false) (.node (.wire 7)
  (.wire 11) [(7,11)] false) [(1,7),(11,12)] false) (.node (.node (.wire 5) (.wire 6) [(5,6)]
  false) (.wire 0) [(0,5)] false) [(0,1)] false) (.node (.node (.node (.wire 2) (.wire 13) [(2,
  13)] false) (.node (.wire 9) (.wire 10) [(9,10)] false) [(2,9),(10,13)] false) (.node (.node
  (.wire 3) (.wire 14) [(3,14)] false) (.node (.wire 4) (.wire 8) [(4,8)] false) [(3,4),(8,14)]
  false) [(2,3),(13,14)] true) [(4,5),(6,8),(7,9),(10,11),(0,2),(1,3),(12,13),(4,10),(5,11),(6,7),
  (8,9),(1,2),(3,12),(13,14),(4,6),(5,7),(8,10),(9,11),(1,4),(2,6),(5,8),(7,10),(9,13),(11,14),(2,
  4),(3,6),(9,12),(11,13),(3,5),(6,8),(7,9),(10,12),(3,4),(5,6),(7,8),(9,10),(11,12),(6,7),(8,9)]
  true) (.node (.node (.node (.wire 24) (.wire 26) [(24,26)] false) (.node (.wire 28) (.wire 30)
  [(28,30)] false) [(24,28),(26,30)] false) (.node (.node (.wire 25) (.wire 27) [(25,27)] false)
  (.node (.wire 29) (.wire 31) [(29,31)] false) [(25,29),(27,31)] false) [(24,25),(26,27),(28,29),
  (30,31),(26,28),(27,29),(25,28),(27,30),(25,26),(27,28),(29,30)] true) [(0,24),(14,30),(2,26),
  (3,27)] false) [(31,54),(0,15),(24,39),(1,16),(25,40),(13,36),(14,37),(29,52),(30,53),(2,17),
  (26,41),(4,43),(5,44),(10,49),(11,50),(12,35),(28,51),(3,18),(6,21),(8,23),(27,42),(31,38),(15,
  24),(1,25),(16,40),(13,29),(30,37),(36,52),(17,26),(4,19),(5,20),(12,28),(14,45),(33,49),(34,
  50),(35,51),(39,47),(18,27),(38,54),(16,25),(2,15),(29,36),(30,41),(7,31),(9,40),(6,14),(8,39),
  (10,33),(11,34),(12,24),(19,43),(20,44),(21,45),(23,47),(28,35),(13,25),(52,54),(7,22),(9,32),
  (31,46),(38,42),(40,48),(41,49),(4,12),(6,17),(8,15),(10,26),(11,27),(19,24),(23,39),(28,43),
  (29,44),(30,33),(35,47),(37,45),(5,13),(7,18),(9,16),(20,25),(22,31),(34,38),(36,48),(42,50),
  (46,52),(1,4),(10,17),(12,19),(14,30),(21,26),(24,28),(29,32),(33,37),(35,43),(45,51),(3,9),(11,
  18),(16,20),(25,40),(27,34),(36,44),(38,42),(50,53),(1,2),(4,8),(14,21),(15,19),(23,24),(26,30),
  (28,39),(33,41),(45,49),(5,9),(13,20),(22,27),(25,29),(31,34),(32,40),(38,46),(50,52),(53,54),
  (3,4),(12,15),(14,23),(17,19),(21,26),(24,28),(30,35),(33,39),(37,41),(13,16),(18,25),(20,22),
  (27,31),(29,32),(34,40),(36,38),(42,46),(51,52),(4,8),(6,12),(10,15),(14,17),(19,23),(21,24),
  (26,28),(30,33),(35,39),(37,43),(41,47),(7,13),(11,16),(18,20),(22,25),(27,29),(31,32),(34,36),
  (38,40),(42,44),(46,48),(50,51),(5,8),(9,12),(7,10),(11,14),(13,15),(16,17),(18,19),(20,21),(22,
  23),(24,25),(26,27),(28,29),(30,31),(32,35),(33,34),(36,39),(37,38),(40,43),(41,42),(44,47),(45,
  46),(49,50),(6,8),(7,9),(10,12),(11,13),(14,15),(16,18),(17,19),(20,22),(21,23),(24,26),(25,27),
  (28,30),(29,31),(32,33),(34,35),(36,37),(38,39),(40,41),(42,43),(44,45),(46,47),(48,49),(5,6),
  (7,8),(9,10),(11,12),(13,14),(15,16),(17,18),(19,20),(21,22),(23,24),(25,26),(27,28),(29,30),
  (31,32),(33,34),(35,36),(37,38),(39,40),(41,42),(43,44),(45,46),(47,48),(49,50)] false)

theorem net55_sorts01 : Sorts01 55 net55 :=
  sorts01_of_check (p := plan55) (by decide +kernel)

/-- Plan for `net56`. -/
def plan56 : Plan := (.node (.node (.node (.node (.node (.node (.wire 18) (.wire 39) [(18,39)]
  false) (.node (.wire 33) (.wire 34) [(33,34)] false) [(18,33),(34,39)] false) (.node (.node
  (.wire 19) (.wire 38) [(19,38)] false) (.node (.wire 20) (.wire 32) [(20,32)] false) [(19,20),
  (32,38)] false) [(18,19),(38,39)] true) (.node (.node (.node (.wire 16) (.wire 37) [(16,37)]
  false) (.node (.wire 21) (.wire 22) [(21,22)] false) [(16,21),(22,37)] false) (.node (.node
  (.wire 17) (.wire 36) [(17,36)] false) (.node (.wire 23) (.wire 35) [(23,35)] false) [(17,23),
  (35,36)] false) [(16,17),(36,37)] true) [(20,21),(22,32),(23,33),(34,35),(16,18),(17,19),(36,
  38),(37,39),(20,34),(21,35),(22,23),(32,33),(17,18),(19,36),(37,38),(20,22),(21,23),(32,34),(33,
  35),(17,20),(18,22),(21,32),(23,34),(33,37),(35,38),(18,20),(19,22),(33,36),(35,37),(19,21),(22,
  32),(23,33),(34,36),(19,20),(21,22),(23,32),(33,34),(35,36),(22,23),(32,33)] true) (.node
  (.node (.node (.node (.wire 42) (.wire 55) [(42,55)] false) (.node (.wire 49) (.wire 50) [(49,
  50)] false) [(42,49),(50,55)] false) (.node (.node (.wire 43) (.wire 54) [(43,54)] false)
  (.node (.wire 44) (.wire 48) [(44,48)] false) [(43,44),(48,54)] false) [(42,43),(54,55)] true)
  (.node (.node (.node (.wire 40) (.wire 53) [(40,53)] false) (.node (.wire 45) (.wire 46) [(45,
  46)] false) [(40,45),(46,53)] false) (.node (.node (.wire 41) (.wire 52) [(41,52)] false)
  (.node (.wire 47) (.wire 51) [(47,51)] false) [(41,47),(51,52)] false) [(40,41),(52,53)] true)
  [(44,45),(46,48),(47,49),(50,51),(40,42),(41,43),(52,54),(53,55),(44,50),(45,51),(46,47),(48,
  49),(41,42),(43,52),(53,54),(44,46),(45,47),(48,50),(49,51),(41,44),(42,46),(45,48),(47,50),(49,
  53),(51,54),(42,44),(43,46),(49,52),(51,53),(43,45),(46,48),(47,49),(50,52),(43,44),(45,46),(47,
  48),(49,50),(51,52),(46,47),(48,49)] true) [(16,40),(38,54),(18,42),(19,43),(23,47),(33,49)]
  false) (.node (.node (.node (.node (.node (.wire 2) (.wire 15) [(2,15)] false) (.node (.wire 9)
  (.wire 10) [(9,10)] false) [(2,9),(10,15)] false) (.node (.node (.wire 3) (.wire 14) [(3,14)]
  false) (.node (.wire 4) (.wire 8) [(4,8)] false) [(3,4),(8,14)] false) [(2,3),(14,15)] true)
  (.node (.node (.node (.wire 0) (.wire 13) [(0,13)] false) (.node (.wire 5) (.wire 6) [(5,6)]
  false) [(0,5),(6,13)] false) (.node (.node (.wire 1) (.wire 12) [(1,12)] false) (.node (.wire
  7) (.wire 11) [(7,11)] false) [(1,7),(11,12)] false) [(0,1),(12,13)] true) [(4,5),(6,8),(7,9),
  (10,11),(0,2),(1,3),(12,14),(13,15),(4,10),(5,11),(6,7),(8,9),(1,2),(3,12),(13,14),(4,6),(5,7),
  (8,10),(9,11),(1,4),(2,6),(5,8),(7,10),(9,13),(11,14),(2,4),(3,6),(9,12),(11,13),(3,5),(6,8),(7,
  9),(10,12),(3,4),(5,6),(7,8),(9,10),(11,12),(6,7),(8,9)] true) (.node (.node (.node (.wire 24)
  (.wire 26) [(24,26)] false) (.node (.wire 28) (.wire 30) [(28,30)] false) [(24,28),(26,30)]
  false) (.node (.node (.wire 25) (.wire 27) [(25,27)] false) (.node (.wire 29) (.wire 31) [(29,
  31)] false) [(25,29),(27,31)] false) [(24,25),(26,27),(28,29),(30,31),(26,28),(27,29),(25,28),
  (27,30),(25,26),(27,28),(29,30)] true) [(0,24),(14,30),(2,26),(3,27)] false) [(15,39),(31,55),
  (0,16),(24,40),(1,17),(25,41),(13,37),(14,38),(29,53),(30,54),(2,18),(26,42),(4,44),(5,45),(10,
  50),(11,51),(12,36),(28,52),(3,19),(6,22),(8,32),(27,43),(15,31),(39,55),(16,24),(1,25),(17,41),
  (13,29),(30,38),(37,53),(18,26),(4,20),(5,21),(12,28),(14,46),(34,50),(35,51),(36,52),(40,48),
  (19,27),(31,39),(17,25),(2,16),(29,37),(30,42),(7,15),(9,41),(6,14),(8,40),(10,34),(11,35),(12,
  24),(20,44),(21,45),(22,46),(28,36),(32,48),(13,25),(39,53),(7,23),(9,33),(15,47),(31,43),(41,
  49),(42,50),(4,12),(6,18),(8,16),(10,26),(11,27),(20,24),(28,44),(29,45),(30,34),(32,40),(36,
  48),(38,46),(5,13),(7,19),(9,17),(15,23),(21,25),(31,35),(37,49),(39,47),(43,51),(1,4),(10,18),
  (12,20),(14,30),(22,26),(24,28),(29,33),(34,38),(36,44),(46,52),(3,9),(11,19),(17,21),(25,41),
  (27,31),(35,43),(37,45),(51,54),(1,2),(4,8),(14,22),(16,20),(24,32),(26,30),(28,40),(34,42),(46,
  50),(5,9),(13,21),(15,27),(23,31),(25,29),(33,41),(35,39),(47,51),(53,54),(3,4),(12,16),(14,24),
  (18,20),(22,26),(28,32),(30,36),(34,40),(38,42),(13,17),(15,21),(19,25),(23,27),(29,33),(31,41),
  (35,37),(39,43),(51,52),(4,8),(6,12),(10,16),(14,18),(20,24),(22,28),(26,32),(30,34),(36,40),
  (38,44),(42,48),(7,13),(11,17),(15,19),(21,25),(23,29),(27,33),(31,35),(37,41),(39,45),(43,49),
  (47,51),(5,8),(9,12),(7,10),(11,14),(13,16),(15,20),(17,18),(19,22),(21,24),(23,26),(25,28),(27,
  30),(29,32),(31,34),(33,36),(35,40),(37,38),(39,42),(41,44),(43,46),(45,48),(47,50),(6,8),(7,9),
  (10,12),(11,13),(14,16),(15,17),(18,20),(19,21),(22,24),(23,25),(26,28),(27,29),(30,32),(31,33),
  (34,36),(35,37),(38,40),(39,41),(42,44),(43,45),(46,48),(47,49),(5,6),(7,8),(9,10),(11,12),(13,
  14),(15,16),(17,18),(19,20),(21,22),(23,24),(25,26),(27,28),(29,30),(31,32),(33,34),(35,36),(37,
  38),(39,40),(41,42),(43,44),(45,46),(47,48),(49,50)] false)

theorem net56_sorts01 : Sorts01 56 net56 :=
  sorts01_of_check (p := plan56) (by decide +kernel)

end CppSort
