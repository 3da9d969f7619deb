import Verif.Base.Strands
import Verif.Model.NetData4
/-
The networks for 41 to 48 elements sort every 0-1 input (checked by following all inputs).
-/
set_option autoImplicit false
set_option maxRecDepth 100000

namespace CppSort

/-- Plan for `net41`. -/
def plan41 : Plan := (.node (.node (.node (.node (.node (.node (.wire 0) (.wire 1) [(0,1)] false)
  (.node (.wire 2) (.wire 3) [(2,3)] false) [(0,2),(1,3)] false) (.node (.node (.wire 4) (.wire
  5) [(4,5)] false) (.node (.wire 6) (.wire 7) [(6,7)] false) [(4,6),(5,7)] false) [(0,4),(1,5),
  (2,6),(3,7)] false) (.node (.node (.node (.wire 8) (.wire 9) [(8,9)] false) (.node (.wire 10)
  (.wire 11) [(10,11)] false) [(8,10),(9,11)] false) (.node (.node (.wire 12) (.wire 13) [(12,
  13)] false) (.node (.wire 14) (.wire 15) [(14,15)] false) [(12,14),(13,15)] false) [(8,12),(9,
  13),(10,14),(11,15)] false) [(0,8),(1,9),(2,10),(3,11),(4,12),(5,13),(6,14),(7,15)] true)
  (.node (.node (.node (.node (.wire 16) (.wire 17) [(16,17)] false) (.node (.wire 18) (.wire 19)
  [(18,19)] false) [(16,18),(17,19)] false) (.node (.node (.wire 20) (.wire 21) [(20,21)] false)
  (.node (.wire 22) (.wire 23) [(22,23)] false) [(20,22),(21,23)] false) [(16,20),(17,21),(18,22),
  (19,23)] false) (.node (.node (.node (.wire 24) (.wire 25) [(24,25)] false) (.node (.wire 26)
  (.wire 27) [(26,27)] false) [(24,26),(25,27)] false) (.node (.node (.wire 28) (.wire 29) [(28,
  29)] false) (.node (.wire 30) (.wire 31) [(30,31)] false) [(28,30),(29,31)] false) [(24,28),(25,
  29),(26,30),(27,31)] false) [(16,24),(17,25),(18,26),(19,27),(20,28),(21,29),(22,30),(23,31)]
  true) [(0,16),(1,17),(2,18),(3,19),(4,20),(5,21),(6,22),(7,23),(8,24),(9,25),(10,26),(11,27),
  (12,28),(13,29),(14,30),(15,31),(1,2),(3,12),(4,8),(5,10),(6,9),(7,11),(13,14),(17,18),(19,28),
  (20,24),(21,26),(22,25),(23,27),(29,30),(5,6),(7,13),(9,10),(18,24),(21,22),(23,29),(25,26),(6,
  17),(10,21),(23,25)] false) (.node (.node (.node (.node (.wire 34) (.wire 37) [(34,37)] false)
  (.wire 38) [(37,38)] false) (.node (.wire 36) (.wire 40) [(36,40)] false) [(34,36),(36,37)]
  false) (.node (.node (.wire 32) (.wire 35) [(32,35)] false) (.node (.wire 33) (.wire 39) [(33,
  39)] false) [(32,39)] false) [(35,40),(32,34),(33,35),(39,40),(33,36),(35,38),(37,39),(32,33),
  (34,36),(35,37),(38,40),(34,35),(36,37),(38,39),(33,34),(35,36),(37,38)] true) [(0,32),(31,40),
  (11,39),(1,36),(2,33),(12,37),(14,38),(18,34),(28,35),(15,31),(16,32),(11,22),(30,39),(2,4),(3,
  28),(6,18),(8,33),(14,34),(26,37),(27,38),(15,19),(1,16),(30,35),(3,20),(7,14),(9,28),(11,34),
  (12,33),(17,26),(31,38),(15,36),(19,29),(1,2),(8,16),(22,30),(3,4),(7,18),(11,20),(12,17),(21,
  33),(24,34),(31,35),(38,39),(15,32),(19,27),(25,36),(4,16),(9,11),(14,24),(20,28),(29,35),(5,
  15),(10,32),(13,25),(27,36),(9,12),(11,17),(18,20),(22,28),(29,37),(35,38),(5,6),(10,15),(23,
  32),(25,34),(12,16),(29,30),(35,37),(5,8),(7,10),(13,23),(15,21),(19,32),(24,25),(27,34),(6,12),
  (2,5),(3,8),(7,9),(13,14),(15,18),(19,26),(20,21),(22,24),(23,33),(25,28),(31,32),(10,16),(27,
  29),(30,34),(3,5),(4,9),(11,13),(14,17),(19,23),(26,33),(32,36),(6,8),(10,12),(27,31),(4,7),(11,
  15),(13,20),(14,18),(17,21),(19,22),(23,25),(24,26),(28,33),(29,32),(35,36),(30,31),(4,6),(7,8),
  (9,11),(13,15),(14,16),(17,19),(18,20),(21,23),(22,24),(25,26),(27,28),(29,33),(32,34),(4,5),(6,
  7),(9,10),(11,12),(13,14),(15,16),(17,18),(19,20),(21,22),(23,24),(25,27),(26,28),(29,30),(31,
  33),(34,35),(8,9),(10,11),(12,13),(14,15),(16,17),(18,19),(20,21),(22,23),(24,25),(26,27),(28,
  29),(30,31),(32,33)] false)

theorem net41_sorts01 : Sorts01 41 net41 :=
  sorts01_of_check (p := plan41) (by decide +kernel)

/-- Plan for `net42`. -/
def plan42 : Plan := (.node (.node (.node (.node (.node (.node (.wire 0) (.wire 1) [(0,1)] false)
  (.node (.wire 2) (.wire 3) [(2,3)] false) [(0,2),(1,3)] false) (.node (.node (.wire 4) (.wire
  5) [(4,5)] false) (.node (.wire 6) (.wire 7) [(6,7)] false) [(4,6),(5,7)] false) [(0,4),(1,5),
  (2,6),(3,7)] false) (.node (.node (.node (.wire 8) (.wire 9) [(8,9)] false) (.node (.wire 10)
  (.wire 11) [(10,11)] false) [(8,10),(9,11)] false) (.node (.node (.wire 12) (.wire 13) [(12,
  13)] false) (.node (.wire 14) (.wire 15) [(14,15)] false) [(12,14),(13,15)] false) [(8,12),(9,
  13),(10,14),(11,15)] false) [(0,8),(1,9),(2,10),(3,11),(4,12),(5,13),(6,14),(7,15)] true)
  (.node (.node (.node (.node (.wire 26) (.wire 27) [(26,27)] false) (.node (.wire 28) (.wire 29)
  [(28,29)] false) [(26,28),(27,29)] false) (.node (.node (.wire 30) (.wire 31) [(30,31)] false)
  (.node (.wire 32) (.wire 33) [(32,33)] false) [(30,32),(31,33)] false) [(26,30),(27,31),(28,32),
  (29,33)] false) (.node (.node (.node (.wire 34) (.wire 35) [(34,35)] false) (.node (.wire 36)
  (.wire 37) [(36,37)] false) [(34,36),(35,37)] false) (.node (.node (.wire 38) (.wire 39) [(38,
  39)] false) (.node (.wire 40) (.wire 41) [(40,41)] false) [(38,40),(39,41)] false) [(34,38),(35,
  39),(36,40),(37,41)] false) [(26,34),(27,35),(28,36),(29,37),(30,38),(31,39),(32,40),(33,41)]
  true) [(0,26),(1,27),(2,28),(3,29),(4,30),(5,31),(6,32),(7,33),(8,34),(9,35),(10,36),(11,37),
  (12,38),(13,39),(14,40),(15,41),(1,2),(3,12),(4,8),(5,10),(6,9),(7,11),(13,14),(27,28),(29,38),
  (30,34),(31,36),(32,35),(33,37),(39,40),(5,6),(7,13),(9,10),(28,34),(31,32),(35,36)] false)
  (.node (.node (.node (.node (.wire 16) (.wire 17) [(16,17)] false) (.node (.wire 24) (.wire 25)
  [(24,25)] false) [(16,24),(17,25)] false) (.node (.wire 20) (.wire 21) [(20,21)] false) [(17,
  20),(21,24)] false) (.node (.node (.wire 18) (.wire 19) [(18,19)] false) (.node (.wire 22)
  (.wire 23) [(22,23)] false) [(18,22),(19,23),(19,22)] false) [(16,18),(23,25),(19,21),(20,22),
  (17,18),(23,24),(16,17),(18,20),(21,23),(24,25),(17,19),(20,21),(22,24),(18,19),(22,23)] true)
  [(0,16),(25,41),(14,21),(15,24),(17,26),(20,27),(8,19),(11,23),(18,30),(22,33),(4,16),(25,37),
  (1,17),(3,20),(5,26),(12,27),(14,29),(15,36),(21,38),(24,40),(6,18),(9,30),(10,19),(11,32),(22,
  31),(23,35),(2,16),(25,39),(1,4),(3,5),(7,26),(8,17),(14,20),(15,34),(21,27),(24,33),(36,38),
  (37,40),(11,28),(12,18),(13,30),(23,29),(16,25),(2,6),(9,14),(19,21),(20,22),(27,32),(35,39),
  (11,12),(15,18),(23,26),(29,30),(16,17),(24,25),(2,8),(5,9),(7,20),(13,22),(19,28),(21,34),(32,
  36),(33,39),(6,16),(10,17),(24,31),(25,35),(4,8),(7,11),(13,14),(27,28),(30,34),(33,37),(10,12),
  (17,18),(23,24),(29,31),(2,4),(6,8),(11,16),(25,30),(33,35),(37,39),(9,10),(12,20),(15,17),(18,
  22),(19,23),(21,29),(24,26),(31,32),(3,6),(5,8),(33,36),(35,38),(7,9),(10,16),(12,19),(13,15),
  (14,17),(18,21),(20,23),(22,29),(24,27),(25,31),(26,28),(32,34),(3,4),(8,11),(30,33),(37,38),(6,
  7),(12,13),(14,19),(15,20),(17,23),(18,24),(21,26),(22,27),(28,29),(34,35),(9,11),(30,32),(5,6),
  (7,8),(10,12),(13,15),(14,16),(17,18),(19,20),(21,22),(23,24),(25,27),(26,28),(29,31),(33,34),
  (35,36),(6,7),(9,10),(11,12),(13,14),(15,16),(17,19),(18,20),(21,23),(22,24),(25,26),(27,28),
  (29,30),(31,32),(34,35),(8,9),(10,11),(12,13),(14,15),(16,17),(18,19),(20,21),(22,23),(24,25),
  (26,27),(28,29),(30,31),(32,33)] false)

theorem net42_sorts01 : Sorts01 42 net42 :=
  sorts01_of_check (p := plan42) (by decide +kernel)

/-- Plan for `net43`. -/
def plan43 : Plan := (.node (.node (.node (.node (.node (.node (.wire 15) (.wire 42) [(15,42)]
  false) (.node (.wire 40) (.wire 41) [(40,41)] false) [(15,40),(41,42)] false) (.node (.node
  (.wire 36) (.wire 37) [(36,37)] false) (.node (.wire 38) (.wire 39) [(38,39)] false) [(36,38),
  (37,39)] false) [(15,36),(37,41),(38,40),(39,42)] false) (.node (.node (.node (.wire 28) (.wire
  29) [(28,29)] false) (.node (.wire 30) (.wire 31) [(30,31)] false) [(28,30),(29,31)] false)
  (.node (.node (.wire 32) (.wire 33) [(32,33)] false) (.node (.wire 34) (.wire 35) [(34,35)]
  false) [(32,34),(33,35)] false) [(28,32),(29,33),(30,34),(31,35)] false) [(15,28),(29,37),(30,
  38),(31,39),(32,36),(33,41),(34,40),(35,42)] true) (.node (.node (.node (.node (.wire 16)
  (.wire 17) [(16,17)] false) (.node (.wire 18) (.wire 19) [(18,19)] false) [(16,18),(17,19)]
  false) (.node (.node (.wire 24) (.wire 25) [(24,25)] false) (.node (.wire 26) (.wire 27) [(26,
  27)] false) [(24,26),(25,27)] false) [(16,24),(17,25),(18,26),(19,27),(18,24),(19,25)] false)
  (.node (.node (.wire 20) (.wire 21) [(20,21)] false) (.node (.wire 22) (.wire 23) [(22,23)]
  false) [(20,22),(21,23)] false) [(16,20),(17,21),(22,26),(23,27),(17,20),(18,22),(21,25),(23,
  26),(17,18),(19,23),(20,24),(25,26),(18,20),(19,22),(21,24),(23,25)] true) [(27,42)] false)
  (.node (.node (.node (.node (.wire 7) (.wire 14) [(7,14)] false) (.node (.wire 12) (.wire 13)
  [(12,13)] false) [(7,12),(13,14)] false) (.node (.node (.wire 8) (.wire 9) [(8,9)] false)
  (.node (.wire 10) (.wire 11) [(10,11)] false) [(8,10),(9,11)] false) [(7,8),(9,13),(10,12),(11,
  14)] false) (.node (.node (.node (.wire 3) (.wire 6) [(3,6)] false) (.node (.wire 4) (.wire 5)
  [(4,5)] false) [(3,4),(5,6)] false) (.node (.node (.wire 1) (.wire 2) [(1,2)] false) (.wire 0)
  [(0,1)] false) [(0,3),(1,4),(2,5)] false) [(0,7),(1,10),(2,9),(3,8),(4,12),(5,13),(6,11)] true)
  [(0,15),(1,30),(2,29),(3,32),(4,34),(5,33),(6,31),(7,28),(8,36),(9,37),(10,38),(11,39),(12,40),
  (13,41),(14,35),(0,16),(1,2),(3,7),(4,9),(5,10),(6,8),(11,14),(12,13),(28,32),(29,30),(31,36),
  (33,38),(34,37),(35,39),(40,41),(4,5),(9,10),(12,14),(15,16),(27,40),(28,30),(33,34),(37,38),(7,
  20),(8,24),(11,21),(13,25),(18,29),(19,31),(22,32),(23,35),(2,16),(14,26),(17,28),(3,18),(5,22),
  (6,19),(12,23),(20,30),(21,37),(24,36),(25,39),(27,31),(35,40),(1,17),(2,7),(8,16),(13,28),(14,
  29),(26,41),(3,15),(5,18),(11,19),(24,32),(25,37),(27,33),(31,35),(39,42),(6,17),(7,8),(9,13),
  (10,16),(14,20),(23,28),(26,36),(29,34),(1,3),(2,15),(4,11),(12,27),(21,33),(25,31),(32,38),(35,
  37),(39,40),(41,42),(5,7),(8,18),(9,17),(10,22),(13,19),(16,30),(24,29),(26,34),(2,3),(6,15),
  (11,12),(21,23),(28,33),(31,35),(36,39),(40,41),(7,8),(10,14),(13,27),(16,29),(20,22),(30,32),
  (4,6),(5,15),(12,21),(25,28),(31,33),(36,37),(38,39),(8,10),(13,17),(14,18),(16,24),(19,27),(22,
  30),(26,29),(3,4),(6,9),(7,15),(34,38),(35,36),(39,40),(11,13),(12,17),(16,20),(19,21),(22,24),
  (23,27),(26,30),(29,32),(4,5),(6,8),(9,15),(33,38),(34,35),(37,39),(14,16),(17,19),(18,20),(23,
  25),(24,26),(27,28),(6,7),(10,15),(31,34),(36,38),(11,14),(12,16),(13,18),(20,22),(21,23),(25,
  29),(27,30),(28,32),(5,6),(37,38),(8,11),(12,15),(13,14),(16,18),(17,20),(19,22),(21,24),(23,
  26),(25,27),(28,29),(30,31),(32,33),(8,9),(10,11),(12,13),(14,15),(16,17),(18,19),(20,21),(22,
  23),(24,25),(26,27),(28,30),(29,31),(32,34),(33,35),(7,8),(9,10),(11,12),(13,14),(15,16),(17,
  18),(19,20),(21,22),(23,24),(25,26),(27,28),(29,30),(31,32),(33,34),(35,36)] false)

theorem net43_sorts01 : Sorts01 43 net43 :=
  sorts01_of_check (p := plan43) (by decide +kernel)

/-- Plan for `net44`. -/
def plan44 : Plan := (.node (.node (.node (.node (.node (.node (.wire 0) (.wire 1) [(0,1)] false)
  (.node (.wire 2) (.wire 3) [(2,3)] false) [(0,2),(1,3)] false) (.node (.node (.wire 4) (.wire
  5) [(4,5)] false) (.node (.wire 6) (.wire 7) [(6,7)] false) [(4,6),(5,7)] false) [(0,4),(1,5),
  (2,6),(3,7)] false) (.node (.node (.node (.wire 8) (.wire 9) [(8,9)] false) (.node (.wire 10)
  (.wire 11) [(10,11)] false) [(8,10),(9,11)] false) (.node (.node (.wire 12) (.wire 13) [(12,
  13)] false) (.node (.wire 14) (.wire 15) [(14,15)] false) [(12,14),(13,15)] false) [(8,12),(9,
  13),(10,14),(11,15)] false) [(0,8),(1,9),(2,10),(3,11),(4,12),(5,13),(6,14),(7,15)] true)
  (.node (.node (.node (.node (.wire 28) (.wire 29) [(28,29)] false) (.node (.wire 30) (.wire 31)
  [(30,31)] false) [(28,30),(29,31)] false) (.node (.node (.wire 32) (.wire 33) [(32,33)] false)
  (.node (.wire 34) (.wire 35) [(34,35)] false) [(32,34),(33,35)] false) [(28,32),(29,33),(30,34),
  (31,35)] false) (.node (.node (.node (.wire 36) (.wire 37) [(36,37)] false) (.node (.wire 38)
  (.wire 39) [(38,39)] false) [(36,38),(37,39)] false) (.node (.node (.wire 40) (.wire 41) [(40,
  41)] false) (.node (.wire 42) (.wire 43) [(42,43)] false) [(40,42),(41,43)] false) [(36,40),(37,
  41),(38,42),(39,43)] false) [(28,36),(29,37),(30,38),(31,39),(32,40),(33,41),(34,42),(35,43)]
  true) [(0,28),(1,29),(2,30),(3,31),(4,32),(5,33),(6,34),(7,35),(8,36),(9,37),(10,38),(11,39),
  (12,40),(13,41),(14,42),(15,43),(1,2),(3,12),(4,8),(5,10),(6,9),(7,11),(13,14),(29,30),(31,40),
  (32,36),(33,38),(34,37),(35,39),(41,42),(5,6),(9,10),(11,13),(30,32),(33,34),(37,38)] false)
  (.node (.node (.node (.node (.wire 16) (.wire 17) [(16,17)] false) (.node (.wire 18) (.wire 19)
  [(18,19)] false) [(16,18),(17,19)] false) (.node (.node (.wire 24) (.wire 25) [(24,25)] false)
  (.node (.wire 26) (.wire 27) [(26,27)] false) [(24,26),(25,27)] false) [(16,24),(17,25),(18,26),
  (19,27),(18,24),(19,25)] false) (.node (.node (.wire 20) (.wire 21) [(20,21)] false) (.node
  (.wire 22) (.wire 23) [(22,23)] false) [(20,22),(21,23)] false) [(16,20),(17,21),(22,26),(23,
  27),(17,20),(18,22),(21,25),(23,26),(17,18),(19,23),(20,24),(25,26),(18,20),(19,22),(21,24),(23,
  25)] true) [(0,16),(27,43),(7,21),(8,20),(12,24),(13,26),(14,25),(17,30),(18,29),(19,31),(22,
  36),(23,35),(15,27),(16,28),(1,17),(3,19),(4,18),(6,22),(11,23),(13,29),(14,30),(20,32),(21,37),
  (24,40),(25,39),(26,42),(2,28),(15,41),(3,17),(4,16),(6,18),(7,19),(9,14),(13,20),(23,30),(24,
  36),(25,37),(26,40),(27,39),(29,34),(2,8),(12,28),(15,31),(35,41),(1,4),(5,7),(9,17),(14,19),
  (24,29),(26,34),(36,38),(39,42),(8,12),(10,28),(15,33),(31,35),(2,16),(27,41),(6,8),(10,22),(11,
  15),(12,18),(21,33),(25,31),(28,32),(35,37),(2,4),(3,16),(27,40),(39,41),(7,11),(8,12),(10,13),
  (14,15),(20,22),(21,23),(28,29),(30,33),(31,35),(32,36),(3,5),(6,16),(27,37),(38,40),(10,12),
  (11,21),(13,18),(14,17),(15,19),(22,32),(24,28),(25,30),(26,29),(31,33),(3,4),(5,9),(8,16),(27,
  35),(34,38),(39,40),(7,14),(11,17),(15,21),(19,23),(20,24),(22,28),(26,32),(29,36),(4,6),(5,10),
  (9,16),(27,34),(33,38),(37,39),(13,20),(15,17),(18,24),(19,25),(23,30),(26,28),(5,8),(12,16),
  (27,31),(35,38),(7,13),(11,20),(14,18),(19,21),(22,24),(23,32),(25,29),(30,36),(5,6),(37,38),(7,
  10),(11,16),(13,14),(15,22),(17,24),(18,20),(19,26),(21,28),(23,25),(27,32),(29,30),(33,36),(7,
  9),(10,12),(11,13),(14,16),(15,18),(17,20),(19,22),(21,24),(23,26),(25,28),(27,29),(30,32),(31,
  33),(34,36),(7,8),(9,10),(11,12),(13,14),(15,16),(17,18),(19,20),(21,22),(23,24),(25,26),(27,
  28),(29,30),(31,32),(33,34),(35,36)] false)

theorem net44_sorts01 : Sorts01 44 net44 :=
  sorts01_of_check (p := plan44) (by decide +kernel)

/-- Plan for `net45`. -/
def plan45 : Plan := (.node (.node (.node (.node (.node (.node (.wire 15) (.wire 18) [(15,18)]
  false) (.node (.wire 25) (.wire 26) [(25,26)] false) [(15,25),(18,26)] false) (.node (.node
  (.wire 19) (.wire 30) [(19,30)] false) (.node (.wire 20) (.wire 24) [(20,24)] false) [(19,20),
  (24,30)] false) [(15,19),(26,30)] true) (.node (.node (.node (.wire 16) (.wire 29) [(16,29)]
  false) (.node (.wire 21) (.wire 22) [(21,22)] false) [(16,21),(22,29)] false) (.node (.node
  (.wire 17) (.wire 28) [(17,28)] false) (.node (.wire 23) (.wire 27) [(23,27)] false) [(17,23),
  (27,28)] false) [(16,17),(28,29)] true) [(18,27),(20,21),(22,24),(23,25),(15,16),(17,19),(26,
  28),(29,30),(18,20),(21,27),(22,23),(24,25),(16,17),(19,26),(28,29),(18,22),(20,24),(21,23),(25,
  27),(16,18),(17,22),(20,21),(23,24),(25,28),(27,29)] true) (.node (.node (.node (.node (.wire
  3) (.wire 12) [(3,12)] false) (.node (.wire 4) (.wire 8) [(4,8)] false) [(3,4),(8,12)] false)
  (.node (.node (.wire 5) (.wire 6) [(5,6)] false) (.wire 0) [(0,5)] false) [(4,5),(6,8)] false)
  (.node (.node (.node (.wire 9) (.wire 10) [(9,10)] false) (.wire 2) [(2,9)] false) (.node
  (.node (.wire 7) (.wire 11) [(7,11)] false) (.wire 1) [(1,7)] false) [(10,11),(7,9)] false) [(0,
  1),(2,3),(4,10),(5,11),(6,7),(8,9),(0,2),(1,3),(4,6),(5,7),(8,10),(9,11),(1,2),(3,12),(5,8),(7,
  10),(1,4),(2,6)] true) [(3,19),(8,21),(9,25),(11,27)] false) (.node (.node (.node (.node (.wire
  13) (.wire 32) [(13,32)] false) (.node (.wire 37) (.wire 38) [(37,38)] false) [(13,37),(32,38)]
  false) (.node (.node (.wire 33) (.wire 44) [(33,44)] false) (.node (.wire 39) (.wire 43) [(39,
  43)] false) [(33,39),(43,44)] false) [(13,33),(38,44)] true) (.node (.node (.node (.wire 14)
  (.wire 35) [(14,35)] false) (.node (.wire 36) (.wire 40) [(36,40)] false) [(14,36),(35,40)]
  false) (.node (.node (.wire 31) (.wire 34) [(31,34)] false) (.node (.wire 41) (.wire 42) [(41,
  42)] false) [(31,41),(34,42)] false) [(14,31),(40,42)] true) [(32,35),(34,43),(36,37),(39,41),
  (13,14),(31,33),(38,40),(42,44),(32,39),(34,36),(35,41),(37,43),(14,31),(33,38),(40,42),(32,34),
  (35,36),(37,39),(41,43),(14,32),(31,34),(35,37),(36,39),(40,41),(42,43)] true) [(13,15),(30,44),
  (26,38),(1,14),(2,31),(3,33),(5,35),(10,39),(18,32),(22,34),(23,36),(28,41),(29,43),(8,37),(25,
  40),(27,42),(0,13),(12,38),(1,16),(4,18),(5,20),(6,22),(7,36),(17,31),(19,33),(24,39),(9,25),
  (11,27),(21,37),(40,43),(42,44),(13,15),(12,26),(2,17),(7,23),(8,19),(10,24),(14,16),(18,32),
  (20,35),(22,34),(30,39),(28,37),(38,42),(4,13),(5,15),(26,36),(6,14),(7,31),(9,16),(19,21),(29,
  34),(30,33),(24,38),(27,37),(28,32),(42,43),(1,4),(2,5),(3,13),(12,15),(23,26),(7,18),(9,14),
  (11,31),(21,29),(25,30),(33,41),(34,40),(24,32),(37,38),(39,42),(43,44),(2,4),(3,6),(12,17),(13,
  20),(15,22),(16,23),(25,35),(30,31),(40,41),(34,37),(38,39),(42,43),(3,4),(5,6),(7,13),(9,12),
  (10,22),(11,20),(15,28),(16,21),(23,29),(26,30),(31,36),(27,34),(38,40),(4,5),(6,7),(8,15),(10,
  25),(11,16),(13,14),(19,28),(20,21),(22,35),(23,24),(29,32),(30,31),(36,37),(7,12),(8,13),(10,
  17),(14,18),(15,19),(20,23),(21,24),(22,26),(25,28),(33,35),(27,29),(32,34),(36,38),(37,41),(8,
  9),(10,15),(11,14),(12,13),(16,18),(17,19),(22,25),(26,28),(30,33),(31,35),(39,41),(6,8),(10,
  11),(14,15),(16,17),(18,19),(20,22),(21,26),(23,25),(24,28),(27,30),(29,33),(31,32),(34,35),(41,
  42),(5,6),(9,10),(11,14),(13,16),(15,17),(18,20),(19,22),(21,23),(24,27),(25,26),(28,30),(29,
  31),(32,34),(33,36),(35,37),(7,9),(10,12),(11,13),(14,16),(15,18),(17,20),(19,21),(22,23),(24,
  25),(26,27),(28,29),(30,31),(32,33),(34,36),(35,38),(37,40),(7,8),(9,10),(11,12),(13,14),(15,
  16),(17,18),(19,20),(21,22),(23,24),(25,26),(27,28),(29,30),(31,32),(33,34),(35,36),(37,38),(39,
  40)] false)

theorem net45_sorts01 : Sorts01 45 net45 :=
  sorts01_of_check (p := plan45) (by decide +kernel)

/-- Plan for `net46`. -/
def plan46 : Plan := (.node (.node (.node (.node (.node (.node (.wire 15) (.wire 18) [(15,18)]
  false) (.node (.wire 25) (.wire 26) [(25,26)] false) [(15,25),(18,26)] false) (.node (.node
  (.wire 19) (.wire 30) [(19,30)] false) (.node (.wire 20) (.wire 24) [(20,24)] false) [(19,20),
  (24,30)] false) [(15,19),(26,30)] true) (.node (.node (.node (.wire 16) (.wire 29) [(16,29)]
  false) (.node (.wire 21) (.wire 22) [(21,22)] false) [(16,21),(22,29)] false) (.node (.node
  (.wire 17) (.wire 28) [(17,28)] false) (.node (.wire 23) (.wire 27) [(23,27)] false) [(17,23),
  (27,28)] false) [(16,17),(28,29)] true) [(18,27),(20,21),(22,24),(23,25),(15,16),(17,19),(26,
  28),(29,30),(18,20),(21,27),(22,23),(24,25),(16,17),(19,26),(28,29),(18,22),(20,24),(21,23),(25,
  27),(16,18),(17,22),(20,21),(23,24),(25,28),(27,29)] true) (.node (.node (.node (.node (.wire
  5) (.wire 6) [(5,6)] false) (.wire 0) [(0,5)] false) (.node (.node (.wire 7) (.wire 11) [(7,
  11)] false) (.wire 1) [(1,7)] false) [(0,1)] false) (.node (.node (.node (.wire 2) (.wire 13)
  [(2,13)] false) (.node (.wire 9) (.wire 10) [(9,10)] false) [(2,9),(10,13)] false) (.node
  (.node (.wire 3) (.wire 12) [(3,12)] false) (.node (.wire 4) (.wire 8) [(4,8)] false) [(3,4),(8,
  12)] false) [(2,3),(12,13)] true) [(4,5),(6,8),(7,9),(10,11),(0,2),(1,3),(4,10),(5,11),(6,7),(8,
  9),(1,2),(3,12),(4,6),(5,7),(8,10),(9,11),(1,4),(2,6),(5,8),(7,10),(9,13)] true) [(3,19),(8,21),
  (9,25),(11,27)] false) (.node (.node (.node (.node (.wire 14) (.wire 35) [(14,35)] false)
  (.node (.wire 36) (.wire 40) [(36,40)] false) [(14,36),(35,40)] false) (.node (.node (.wire 31)
  (.wire 34) [(31,34)] false) (.node (.wire 41) (.wire 42) [(41,42)] false) [(31,41),(34,42)]
  false) [(14,31),(40,42)] true) (.node (.node (.node (.wire 32) (.wire 45) [(32,45)] false)
  (.node (.wire 37) (.wire 38) [(37,38)] false) [(32,37),(38,45)] false) (.node (.node (.wire 33)
  (.wire 44) [(33,44)] false) (.node (.wire 39) (.wire 43) [(39,43)] false) [(33,39),(43,44)]
  false) [(32,33),(44,45)] true) [(34,43),(35,38),(36,37),(39,41),(14,32),(31,33),(40,44),(42,45),
  (34,36),(35,39),(37,43),(38,41),(31,32),(33,40),(42,44),(34,35),(36,38),(37,39),(41,43),(31,34),
  (32,35),(36,37),(38,39),(41,42),(43,44)] true) [(14,15),(30,45),(26,40),(1,31),(2,32),(3,33),(5,
  36),(10,39),(13,42),(18,34),(22,35),(23,38),(29,44),(8,37),(25,41),(27,43),(0,14),(12,40),(1,
  16),(4,18),(5,20),(6,22),(7,38),(13,28),(17,32),(19,33),(24,39),(9,25),(11,27),(21,37),(41,44),
  (43,45),(14,15),(12,26),(2,17),(7,23),(8,19),(10,24),(16,31),(18,34),(20,36),(22,35),(28,42),
  (30,39),(13,37),(40,43),(4,14),(5,15),(26,38),(6,16),(7,32),(9,31),(19,21),(29,35),(30,33),(39,
  42),(13,34),(24,40),(27,37),(43,44),(1,4),(2,5),(3,14),(12,15),(23,26),(7,18),(9,16),(11,32),
  (21,29),(25,30),(28,33),(35,41),(42,45),(24,34),(37,40),(39,43),(2,4),(3,6),(12,17),(14,20),(15,
  22),(23,31),(25,36),(30,32),(33,41),(42,44),(35,37),(39,40),(3,4),(5,6),(7,14),(9,12),(10,22),
  (11,20),(13,15),(21,23),(29,31),(26,30),(32,38),(42,43),(27,35),(33,39),(4,5),(6,7),(8,13),(10,
  25),(11,21),(14,16),(15,19),(20,23),(22,36),(24,29),(31,34),(30,32),(37,38),(7,12),(8,14),(10,
  17),(13,15),(16,18),(19,25),(20,24),(22,26),(23,29),(28,36),(27,31),(33,37),(34,35),(38,41),(8,
  9),(10,13),(11,16),(12,14),(15,17),(18,21),(19,22),(25,26),(28,30),(32,36),(40,41),(6,8),(10,
  11),(13,16),(15,18),(17,21),(19,20),(22,24),(23,25),(26,29),(27,28),(30,31),(32,34),(35,36),(41,
  42),(5,6),(9,10),(11,13),(14,15),(16,18),(17,19),(20,21),(22,23),(24,25),(26,27),(28,29),(30,
  32),(31,33),(34,35),(36,38),(7,9),(10,12),(11,14),(13,15),(16,17),(18,19),(20,22),(21,23),(24,
  26),(25,27),(28,30),(29,32),(31,34),(33,35),(36,37),(38,39),(7,8),(9,10),(11,12),(13,14),(15,
  16),(17,18),(19,20),(21,22),(23,24),(25,26),(27,28),(29,30),(31,32),(33,34),(35,36),(37,38),(39,
  40)] false)

theorem net46_sorts01 : Sorts01 46 net46 :=
  sorts01_of_check (p := plan46) (by decide +kernel)

/-- Plan for `net47`. -/
def plan47 : Plan := (.node (.node (.node (.node (.node (.node (.wire 15) (.wire 18) [(15,18)]
  false) (.node (.wire 25) (.wire 26) [(25,26)] false) [(15,25),(18,26)] false) (.node (.node
  (.wire 19) (.wire 30) [(19,30)] false) (.node (.wire 20) (.wire 24) [(20,24)] false) [(19,20),
  (24,30)] false) [(15,19),(26,30)] true) (.node (.node (.node (.wire 16) (.wire 29) [(16,29)]
  false) (.node (.wire 21) (.wire 22) [(21,22)] false) [(16,21),(22,29)] false) (.node (.node
  (.wire 17) (.wire 28) [(17,28)] false) (.node (.wire 23) (.wire 27) [(23,27)] false) [(17,23),
  (27,28)] false) [(16,17),(28,29)] true) [(18,27),(20,21),(22,24),(23,25),(15,16),(17,19),(26,
  28),(29,30),(18,20),(21,27),(22,23),(24,25),(16,17),(19,26),(28,29),(18,22),(20,24),(21,23),(25,
  27),(16,18),(17,22),(20,21),(23,24),(25,28),(27,29)] true) (.node (.node (.node (.node (.wire
  1) (.wire 12) [(1,12)] false) (.node (.wire 7) (.wire 11) [(7,11)] false) [(1,7),(11,12)]
  false) (.node (.node (.wire 5) (.wire 6) [(5,6)] false) (.wire 0) [(0,5)] false) [(0,1)] false)
  (.node (.node (.node (.wire 2) (.wire 13) [(2,13)] false) (.node (.wire 9) (.wire 10) [(9,10)]
  false) [(2,9),(10,13)] false) (.node (.node (.wire 3) (.wire 14) [(3,14)] false) (.node (.wire
  4) (.wire 8) [(4,8)] false) [(3,4),(8,14)] false) [(2,3),(13,14)] true) [(4,5),(6,8),(7,9),(10,
  11),(0,2),(1,3),(12,13),(4,10),(5,11),(6,7),(8,9),(1,2),(3,12),(13,14),(4,6),(5,7),(8,10),(9,
  11),(1,4),(2,6),(5,8),(7,10),(9,13),(11,14)] true) [(3,19),(8,21),(9,25),(11,27)] false) (.node
  (.node (.node (.node (.wire 31) (.wire 34) [(31,34)] false) (.node (.wire 41) (.wire 42) [(41,
  42)] false) [(31,41),(34,42)] false) (.node (.node (.wire 35) (.wire 46) [(35,46)] false)
  (.node (.wire 36) (.wire 40) [(36,40)] false) [(35,36),(40,46)] false) [(31,35),(42,46)] true)
  (.node (.node (.node (.wire 32) (.wire 45) [(32,45)] false) (.node (.wire 37) (.wire 38) [(37,
  38)] false) [(32,37),(38,45)] false) (.node (.node (.wire 33) (.wire 44) [(33,44)] false)
  (.node (.wire 39) (.wire 43) [(39,43)] false) [(33,39),(43,44)] false) [(32,33),(44,45)] true)
  [(34,43),(36,37),(38,40),(39,41),(31,32),(33,35),(42,44),(45,46),(34,36),(37,43),(38,39),(40,
  41),(32,33),(35,42),(44,45),(34,38),(36,40),(37,39),(41,43),(32,34),(33,38),(36,37),(39,40),(41,
  44),(43,45)] true) [(15,31),(30,46),(26,42),(1,32),(2,33),(3,35),(5,36),(10,40),(13,44),(14,45),
  (18,34),(22,38),(23,39),(8,37),(25,41),(27,43),(0,15),(12,42),(1,16),(4,18),(5,20),(6,22),(7,
  39),(13,28),(17,33),(19,35),(24,40),(29,45),(9,25),(11,27),(21,37),(43,46),(15,31),(12,26),(2,
  17),(7,23),(8,19),(10,24),(14,29),(16,32),(18,34),(20,36),(22,38),(28,44),(30,40),(13,37),(42,
  43),(45,46),(4,15),(5,31),(26,39),(6,16),(7,33),(9,32),(14,38),(19,21),(29,41),(30,35),(40,44),
  (13,34),(24,42),(27,37),(1,4),(2,5),(3,15),(12,31),(23,26),(7,18),(9,16),(11,33),(14,21),(25,
  30),(28,35),(29,38),(41,43),(44,45),(24,34),(37,42),(2,4),(3,6),(12,17),(15,20),(22,31),(23,32),
  (25,36),(30,33),(35,38),(40,41),(43,44),(29,37),(3,4),(5,6),(7,15),(9,12),(10,31),(11,20),(13,
  22),(14,23),(21,32),(26,30),(33,39),(40,42),(41,43),(27,29),(4,5),(6,7),(8,13),(10,25),(11,14),
  (15,16),(19,22),(20,23),(21,24),(31,36),(32,34),(30,33),(35,40),(37,39),(7,12),(8,15),(10,17),
  (13,19),(16,18),(20,21),(22,25),(23,24),(26,31),(28,36),(27,32),(29,34),(35,37),(38,39),(8,9),
  (10,13),(11,16),(12,15),(14,18),(17,19),(22,26),(25,31),(28,30),(33,36),(39,42),(6,8),(10,11),
  (13,16),(14,17),(18,19),(20,22),(21,26),(23,25),(24,31),(27,28),(29,33),(30,32),(34,36),(41,42),
  (5,6),(9,10),(11,13),(14,15),(16,17),(18,20),(19,22),(21,23),(24,27),(25,26),(28,31),(29,30),
  (32,35),(33,34),(36,38),(7,9),(10,12),(11,14),(13,15),(16,18),(17,20),(19,21),(22,23),(24,25),
  (26,27),(28,29),(30,31),(32,33),(34,35),(36,37),(38,40),(7,8),(9,10),(11,12),(13,14),(15,16),
  (17,18),(19,20),(21,22),(23,24),(25,26),(27,28),(29,30),(31,32),(33,34),(35,36),(37,38),(39,
  40)] false)

theorem net47_sorts01 : Sorts01 47 net47 :=
  sorts01_of_check (p := plan47) (by decide +kernel)

/-- Plan for `net48`. -/
def plan48 : Plan := (.node (.node (.node (.node (.node (.node (.wire 2) (.wire 15) [(2,15)]
  false) (.node (.wire 9) (.wire 10) [(9,10)] false) [(2,9),(10,15)] false) (.node (.node (.wire
  3) (.wire 14) [(3,14)] false) (.node (.wire 4) (.wire 8) [(4,8)] false) [(3,4),(8,14)] false)
  [(2,3),(14,15)] true) (.node (.node (.node (.wire 0) (.wire 13) [(0,13)] false) (.node (.wire
  5) (.wire 6) [(5,6)] false) [(0,5),(6,13)] false) (.node (.node (.wire 1) (.wire 12) [(1,12)]
  false) (.node (.wire 7) (.wire 11) [(7,11)] false) [(1,7),(11,12)] false) [(0,1),(12,13)] true)
  [(4,5),(6,8),(7,9),(10,11),(0,2),(1,3),(12,14),(13,15),(4,10),(5,11),(6,7),(8,9),(1,2),(3,12),
  (13,14),(4,6),(5,7),(8,10),(9,11),(1,4),(2,6),(5,8),(7,10),(9,13),(11,14)] true) (.node (.node
  (.node (.node (.wire 18) (.wire 31) [(18,31)] false) (.node (.wire 25) (.wire 26) [(25,26)]
  false) [(18,25),(26,31)] false) (.node (.node (.wire 19) (.wire 30) [(19,30)] false) (.node
  (.wire 20) (.wire 24) [(20,24)] false) [(19,20),(24,30)] false) [(18,19),(30,31)] true) (.node
  (.node (.node (.wire 16) (.wire 29) [(16,29)] false) (.node (.wire 21) (.wire 22) [(21,22)]
  false) [(16,21),(22,29)] false) (.node (.node (.wire 17) (.wire 28) [(17,28)] false) (.node
  (.wire 23) (.wire 27) [(23,27)] false) [(17,23),(27,28)] false) [(16,17),(28,29)] true) [(20,
  21),(22,24),(23,25),(26,27),(16,18),(17,19),(28,30),(29,31),(20,26),(21,27),(22,23),(24,25),(17,
  18),(19,28),(29,30),(20,22),(21,23),(24,26),(25,27),(17,20),(18,22),(21,24),(23,26),(25,29),(27,
  30)] true) [(15,31),(3,19),(8,24),(9,25),(11,27)] false) (.node (.node (.node (.node (.wire 34)
  (.wire 47) [(34,47)] false) (.node (.wire 41) (.wire 42) [(41,42)] false) [(34,41),(42,47)]
  false) (.node (.node (.wire 35) (.wire 46) [(35,46)] false) (.node (.wire 36) (.wire 40) [(36,
  40)] false) [(35,36),(40,46)] false) [(34,35),(46,47)] true) (.node (.node (.node (.wire 32)
  (.wire 45) [(32,45)] false) (.node (.wire 37) (.wire 38) [(37,38)] false) [(32,37),(38,45)]
  false) (.node (.node (.wire 33) (.wire 44) [(33,44)] false) (.node (.wire 39) (.wire 43) [(39,
  43)] false) [(33,39),(43,44)] false) [(32,33),(44,45)] true) [(36,37),(38,40),(39,41),(42,43),
  (32,34),(33,35),(44,46),(45,47),(36,42),(37,43),(38,39),(40,41),(33,34),(35,44),(45,46),(36,38),
  (37,39),(40,42),(41,43),(33,36),(34,38),(37,40),(39,42),(41,45),(43,46)] true) [(16,32),(28,44),
  (31,47),(1,33),(2,34),(3,35),(5,37),(10,42),(13,45),(14,46),(20,36),(22,38),(23,39),(8,40),(25,
  41),(27,43),(0,16),(12,44),(15,31),(1,17),(4,20),(5,21),(6,22),(7,39),(13,29),(18,34),(19,35),
  (26,42),(30,46),(9,25),(11,27),(24,40),(16,32),(12,28),(2,18),(7,23),(8,19),(10,26),(14,30),(15,
  42),(17,33),(20,36),(21,37),(22,38),(29,45),(31,43),(13,40),(4,16),(5,32),(28,39),(6,17),(7,34),
  (9,33),(14,38),(15,35),(19,24),(30,41),(31,44),(42,45),(43,46),(13,36),(27,40),(1,4),(2,5),(3,
  16),(12,32),(23,28),(7,20),(9,17),(11,34),(14,24),(15,25),(26,31),(29,35),(30,38),(41,44),(43,
  45),(2,4),(3,6),(12,18),(16,21),(22,32),(23,33),(15,37),(25,34),(26,36),(31,40),(35,38),(41,42),
  (43,44),(3,4),(5,6),(7,16),(9,12),(10,32),(11,21),(13,22),(14,23),(24,33),(25,28),(30,31),(34,
  39),(40,41),(42,43),(4,5),(6,7),(8,13),(10,15),(11,14),(16,17),(19,22),(21,23),(24,26),(32,37),
  (33,36),(27,30),(28,34),(31,39),(35,40),(7,12),(8,16),(10,18),(13,19),(15,22),(17,20),(21,24),
  (23,26),(25,32),(29,37),(27,33),(30,36),(31,35),(38,39),(8,9),(10,13),(11,17),(12,16),(14,20),
  (15,25),(18,19),(22,32),(28,29),(34,37),(39,41),(6,8),(10,11),(13,17),(14,18),(15,21),(19,20),
  (22,23),(24,25),(26,32),(27,28),(29,33),(30,34),(36,37),(41,42),(5,6),(9,10),(11,13),(14,16),
  (15,19),(17,18),(20,21),(22,24),(23,25),(26,27),(28,32),(29,30),(31,33),(34,36),(37,38),(7,9),
  (10,12),(11,14),(13,16),(15,17),(18,19),(20,22),(21,24),(23,26),(25,27),(28,29),(30,32),(31,34),
  (33,36),(35,37),(38,40),(7,8),(9,10),(11,12),(13,14),(15,16),(17,18),(19,20),(21,22),(23,24),
  (25,26),(27,28),(29,30),(31,32),(33,34),(35,36),(37,38),(39,40)] false)

theorem net48_sorts01 : Sorts01 48 net48 :=
  sorts01_of_check (p := plan48) (by decide +kernel)

end CppSort
