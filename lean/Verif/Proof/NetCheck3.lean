import Verif.Base.Strands
import Verif.Model.NetData3
/-
The networks for 33 to 40 elements sort every 0-1 input (checked by following all inputs).
-/
set_option autoImplicit false
set_option maxRecDepth 100000

namespace CppSort

/-- Plan for `net33`. -/
def plan33 : Plan := (.node (.node (.node (.node (.node (.node (.wire 0) (.wire 1) [(0,1)] false)
  (.node (.wire 2) (.wire 3) [(2,3)] false) [(0,2),(1,3)] false) (.node (.node (.wire 4) (.wire
  5) [(4,5)] false) (.node (.wire 6) (.wire 7) [(6,7)] false) [(4,6),(5,7)] false) [(0,4),(1,5),
  (2,6),(3,7)] false) (.node (.node (.node (.wire 8) (.wire 9) [(8,9)] false) (.node (.wire 10)
  (.wire 11) [(10,11)] false) [(8,10),(9,11)] false) (.node (.node (.wire 12) (.wire 13) [(12,
  13)] false) (.node (.wire 14) (.wire 15) [(14,15)] false) [(12,14),(13,15)] false) [(8,12),(9,
  13),(10,14),(11,15)] false) [(0,8),(1,9),(2,10),(3,11),(4,12),(5,13),(6,14),(7,15)] true)
  (.node (.node (.node (.node (.wire 16) (.wire 17) [(16,17)] false) (.node (.wire 18) (.wire 19)
  [(18,19)] false) [(16,18),(17,19)] false) (.node (.node (.wire 20) (.wire 21) [(20,21)] false)
  (.node (.wire 22) (.wire 23) [(22,23)] false) [(20,22),(21,23)] false) [(16,20),(17,21),(18,22),
  (19,23)] false) (.node (.node (.node (.wire 24) (.wire 25) [(24,25)] false) (.node (.wire 26)
  (.wire 27) [(26,27)] false) [(24,26),(25,27)] false) (.node (.node (.wire 28) (.wire 29) [(28,
  29)] false) (.node (.wire 30) (.wire 31) [(30,31)] false) [(28,30),(29,31)] false) [(24,28),(25,
  29),(26,30),(27,31)] false) [(16,24),(17,25),(18,26),(19,27),(20,28),(21,29),(22,30),(23,31)]
  true) [(0,16),(1,17),(2,18),(3,19),(4,20),(5,21),(6,22),(7,23),(8,24),(9,25),(10,26),(11,27),
  (12,28),(13,29),(14,30),(15,31),(1,4),(2,16),(3,20),(5,18),(6,17),(7,22),(9,24),(10,12),(11,28),
  (13,26),(14,25),(15,29),(19,21),(27,30),(1,2),(3,9),(4,16),(6,10),(7,19),(11,17),(12,24),(15,
  27),(22,26),(25,28),(29,30),(3,6),(7,12),(9,18),(10,20),(15,28),(17,22),(21,25),(6,16),(9,10),
  (12,20),(25,26)] false) (.wire 32) [(23,32),(13,23),(27,32),(13,14),(15,23),(30,32),(5,13),(14,
  19),(15,21),(23,27),(31,32),(5,8),(11,13),(14,18),(19,22),(15,17),(23,25),(27,29),(4,5),(7,11),
  (8,16),(12,14),(13,24),(18,20),(19,21),(22,28),(26,27),(29,30),(1,4),(3,5),(6,8),(7,9),(10,11),
  (13,15),(17,24),(22,23),(25,26),(0,1),(2,6),(8,9),(11,16),(12,13),(14,17),(15,18),(19,22),(20,
  24),(23,25),(26,28),(2,4),(5,8),(6,7),(9,11),(10,12),(13,16),(14,15),(17,20),(18,19),(21,24),
  (25,26),(27,28),(3,4),(5,6),(7,8),(9,10),(11,12),(13,14),(15,16),(17,18),(19,20),(21,22),(23,
  24),(28,29),(4,5),(6,7),(8,9),(10,11),(12,13),(14,15),(16,17),(18,19),(20,21),(22,23),(24,25)]
  false)

theorem net33_sorts01 : Sorts01 33 net33 :=
  sorts01_of_check (p := plan33) (by decide +kernel)

/-- Plan for `net34`. -/
def plan34 : Plan := (.node (.node (.node (.node (.node (.node (.wire 1) (.wire 2) [(1,2)] false)
  (.node (.wire 3) (.wire 4) [(3,4)] false) [(1,3),(2,4)] false) (.node (.node (.wire 5) (.wire
  6) [(5,6)] false) (.node (.wire 7) (.wire 8) [(7,8)] false) [(5,7),(6,8)] false) [(1,5),(2,6),
  (3,7),(4,8)] false) (.node (.node (.node (.wire 9) (.wire 10) [(9,10)] false) (.node (.wire 11)
  (.wire 12) [(11,12)] false) [(9,11),(10,12)] false) (.node (.node (.wire 13) (.wire 14) [(13,
  14)] false) (.node (.wire 15) (.wire 16) [(15,16)] false) [(13,15),(14,16)] false) [(9,13),(10,
  14),(11,15),(12,16)] false) [(1,9),(2,10),(3,11),(4,12),(5,13),(6,14),(7,15),(8,16)] true)
  (.node (.node (.node (.node (.wire 17) (.wire 18) [(17,18)] false) (.node (.wire 19) (.wire 20)
  [(19,20)] false) [(17,19),(18,20)] false) (.node (.node (.wire 21) (.wire 22) [(21,22)] false)
  (.node (.wire 23) (.wire 24) [(23,24)] false) [(21,23),(22,24)] false) [(17,21),(18,22),(19,23),
  (20,24)] false) (.node (.node (.node (.wire 25) (.wire 26) [(25,26)] false) (.node (.wire 27)
  (.wire 28) [(27,28)] false) [(25,27),(26,28)] false) (.node (.node (.wire 29) (.wire 30) [(29,
  30)] false) (.node (.wire 31) (.wire 32) [(31,32)] false) [(29,31),(30,32)] false) [(25,29),(26,
  30),(27,31),(28,32)] false) [(17,25),(18,26),(19,27),(20,28),(21,29),(22,30),(23,31),(24,32)]
  true) [(1,17),(2,18),(3,19),(4,20),(5,21),(6,22),(7,23),(8,24),(9,25),(10,26),(11,27),(12,28),
  (13,29),(14,30),(15,31),(16,32),(2,3),(5,17),(6,11),(7,10),(8,12),(14,15),(16,28),(18,19),(21,
  25),(22,27),(23,26),(30,31),(2,9),(8,14),(19,25),(24,31),(8,19),(14,25)] false) (.node (.wire
  0) (.wire 33) [(0,33)] false) [(0,4),(29,33),(0,7),(4,13),(20,29),(26,33),(0,9),(4,18),(7,21),
  (10,20),(12,26),(13,23),(15,29),(24,33),(0,5),(3,7),(6,10),(9,17),(11,20),(12,15),(13,22),(16,
  24),(18,21),(23,27),(26,30),(28,33),(0,1),(3,5),(4,6),(7,17),(10,13),(11,18),(15,22),(16,26),
  (20,23),(27,29),(28,30),(32,33),(4,9),(6,11),(8,10),(12,15),(13,19),(14,20),(18,21),(22,27),(23,
  25),(24,29),(2,4),(5,9),(6,7),(11,17),(12,18),(13,14),(15,21),(16,22),(19,20),(24,28),(26,27),
  (29,31),(1,2),(3,4),(7,8),(10,17),(12,13),(14,18),(15,19),(16,23),(20,21),(25,26),(29,30),(31,
  32),(2,3),(4,5),(7,9),(8,11),(10,12),(13,17),(14,15),(16,20),(18,19),(21,23),(22,25),(24,26),
  (28,29),(30,31),(6,7),(8,9),(11,12),(13,14),(16,17),(19,20),(21,22),(24,25),(26,27),(5,6),(7,8),
  (10,11),(12,13),(15,16),(17,18),(20,21),(22,23),(25,26),(27,28),(9,10),(14,15),(16,17),(18,19),
  (23,24)] false)

theorem net34_sorts01 : Sorts01 34 net34 :=
  sorts01_of_check (p := plan34) (by decide +kernel)

/-- Plan for `net35`. -/
def plan35 : Plan := (.node (.node (.node (.node (.node (.node (.wire 0) (.wire 1) [(0,1)] false)
  (.node (.wire 2) (.wire 3) [(2,3)] false) [(0,2),(1,3)] false) (.node (.node (.wire 4) (.wire
  5) [(4,5)] false) (.node (.wire 6) (.wire 7) [(6,7)] false) [(4,6),(5,7)] false) [(0,4),(1,5),
  (2,6),(3,7)] false) (.node (.node (.node (.wire 8) (.wire 9) [(8,9)] false) (.node (.wire 10)
  (.wire 11) [(10,11)] false) [(8,10),(9,11)] false) (.node (.node (.wire 12) (.wire 13) [(12,
  13)] false) (.node (.wire 14) (.wire 15) [(14,15)] false) [(12,14),(13,15)] false) [(8,12),(9,
  13),(10,14),(11,15)] false) [(0,8),(1,9),(2,10),(3,11),(4,12),(5,13),(6,14),(7,15)] true)
  (.node (.node (.node (.node (.wire 16) (.wire 17) [(16,17)] false) (.node (.wire 18) (.wire 19)
  [(18,19)] false) [(16,18),(17,19)] false) (.node (.node (.wire 20) (.wire 21) [(20,21)] false)
  (.node (.wire 22) (.wire 23) [(22,23)] false) [(20,22),(21,23)] false) [(16,20),(17,21),(18,22),
  (19,23)] false) (.node (.node (.node (.wire 24) (.wire 25) [(24,25)] false) (.node (.wire 26)
  (.wire 27) [(26,27)] false) [(24,26),(25,27)] false) (.node (.node (.wire 28) (.wire 29) [(28,
  29)] false) (.node (.wire 30) (.wire 31) [(30,31)] false) [(28,30),(29,31)] false) [(24,28),(25,
  29),(26,30),(27,31)] false) [(16,24),(17,25),(18,26),(19,27),(20,28),(21,29),(22,30),(23,31)]
  true) [(0,16),(1,17),(2,18),(3,19),(4,20),(5,21),(6,22),(7,23),(8,24),(9,25),(10,26),(11,27),
  (12,28),(13,29),(14,30),(15,31),(1,2),(3,12),(4,8),(5,10),(6,9),(7,11),(13,14),(17,18),(19,28),
  (20,24),(21,26),(22,25),(23,27),(29,30),(5,6),(9,19),(14,28),(18,24),(21,22),(9,21),(14,22),(19,
  26)] false) (.node (.node (.wire 32) (.wire 33) [(32,33)] false) (.wire 34) [(33,34),(32,33)]
  false) [(0,32),(31,34),(17,33),(15,31),(16,32),(1,17),(13,33),(3,16),(10,32),(15,20),(30,31),(7,
  13),(8,17),(11,33),(1,3),(2,15),(10,16),(20,32),(23,30),(6,17),(11,19),(13,24),(26,33),(3,4),(5,
  16),(7,15),(12,20),(23,29),(25,32),(19,24),(1,3),(4,8),(5,10),(6,7),(9,12),(13,15),(14,25),(16,
  18),(20,21),(28,32),(29,33),(2,5),(10,16),(11,20),(12,14),(17,18),(21,23),(22,25),(26,28),(27,
  33),(30,32),(2,4),(5,8),(9,16),(11,17),(12,13),(14,15),(18,20),(19,26),(21,22),(23,25),(24,28),
  (27,30),(31,33),(2,3),(4,5),(6,9),(7,16),(8,10),(11,12),(13,18),(14,17),(15,20),(19,21),(22,24),
  (23,26),(25,28),(27,29),(31,32),(6,8),(7,9),(10,11),(12,14),(13,16),(15,19),(17,18),(20,21),(22,
  23),(24,26),(25,27),(28,29),(30,31),(5,6),(7,10),(9,11),(12,13),(14,16),(15,17),(18,19),(20,22),
  (21,23),(24,25),(26,27),(29,30),(7,8),(9,10),(11,12),(13,14),(15,16),(17,18),(19,20),(21,22),
  (23,24),(25,26),(27,28)] false)

theorem net35_sorts01 : Sorts01 35 net35 :=
  sorts01_of_check (p := plan35) (by decide +kernel)

/-- Plan for `net36`. -/
def plan36 : Plan := (.node (.node (.node (.node (.node (.node (.wire 2) (.wire 3) [(2,3)] false)
  (.node (.wire 4) (.wire 5) [(4,5)] false) [(2,4),(3,5)] false) (.node (.node (.wire 6) (.wire
  7) [(6,7)] false) (.node (.wire 8) (.wire 9) [(8,9)] false) [(6,8),(7,9)] false) [(2,6),(3,7),
  (4,8),(5,9)] false) (.node (.node (.node (.wire 10) (.wire 11) [(10,11)] false) (.node (.wire
  12) (.wire 13) [(12,13)] false) [(10,12),(11,13)] false) (.node (.node (.wire 14) (.wire 15)
  [(14,15)] false) (.node (.wire 16) (.wire 17) [(16,17)] false) [(14,16),(15,17)] false) [(10,
  14),(11,15),(12,16),(13,17)] false) [(2,10),(3,11),(4,12),(5,13),(6,14),(7,15),(8,16),(9,17)]
  true) (.node (.node (.node (.node (.wire 18) (.wire 19) [(18,19)] false) (.node (.wire 20)
  (.wire 21) [(20,21)] false) [(18,20),(19,21)] false) (.node (.node (.wire 22) (.wire 23) [(22,
  23)] false) (.node (.wire 24) (.wire 25) [(24,25)] false) [(22,24),(23,25)] false) [(18,22),(19,
  23),(20,24),(21,25)] false) (.node (.node (.node (.wire 26) (.wire 27) [(26,27)] false) (.node
  (.wire 28) (.wire 29) [(28,29)] false) [(26,28),(27,29)] false) (.node (.node (.wire 30) (.wire
  31) [(30,31)] false) (.node (.wire 32) (.wire 33) [(32,33)] false) [(30,32),(31,33)] false)
  [(26,30),(27,31),(28,32),(29,33)] false) [(18,26),(19,27),(20,28),(21,29),(22,30),(23,31),(24,
  32),(25,33)] true) [(2,18),(3,19),(4,20),(5,21),(6,22),(7,23),(8,24),(9,25),(10,26),(11,27),(12,
  28),(13,29),(14,30),(15,31),(16,32),(17,33),(4,10),(5,11),(8,26),(9,27),(12,22),(13,23),(14,20),
  (15,21),(24,30),(25,31),(11,19),(16,24)] false) (.node (.node (.wire 0) (.wire 1) [(0,1)]
  false) (.node (.wire 34) (.wire 35) [(34,35)] false) [(0,34),(1,35)] false) [(0,2),(1,3),(32,
  34),(33,35),(1,10),(2,12),(3,22),(13,32),(23,33),(25,34),(2,18),(3,12),(7,13),(17,33),(22,28),
  (23,32),(3,8),(5,23),(6,18),(7,11),(12,30),(13,19),(16,22),(17,29),(24,28),(27,32),(1,6),(4,7),
  (5,14),(8,20),(9,23),(10,18),(11,13),(12,26),(15,27),(17,25),(21,30),(22,24),(28,31),(29,34),(2,
  4),(3,5),(7,8),(9,15),(12,14),(20,26),(21,23),(27,28),(30,32),(31,33),(1,2),(4,6),(7,10),(8,18),
  (9,22),(11,20),(13,26),(14,16),(15,24),(17,27),(19,21),(25,28),(29,31),(33,34),(2,4),(3,7),(5,
  8),(9,14),(11,12),(13,18),(15,16),(17,22),(19,20),(21,26),(23,24),(27,30),(28,32),(31,33),(3,4),
  (5,11),(6,7),(8,12),(9,13),(14,18),(15,19),(16,20),(17,21),(22,26),(23,27),(24,30),(28,29),(31,
  32),(4,6),(7,10),(9,11),(12,15),(13,14),(16,17),(18,19),(20,23),(21,22),(24,26),(25,28),(29,31),
  (5,7),(8,10),(12,13),(14,15),(16,18),(17,19),(20,21),(22,23),(25,27),(28,30),(5,6),(8,9),(10,
  11),(13,14),(15,16),(17,18),(19,20),(21,22),(24,25),(26,27),(29,30),(7,8),(9,10),(11,12),(23,
  24),(25,26),(27,28)] false)

theorem net36_sorts01 : Sorts01 36 net36 :=
  sorts01_of_check (p := plan36) (by decide +kernel)

/-- Plan for `net37`. -/
def plan37 : Plan := (.node (.node (.node (.node (.node (.node (.wire 0) (.wire 1) [(0,1)] false)
  (.node (.wire 2) (.wire 3) [(2,3)] false) [(0,2),(1,3)] false) (.node (.node (.wire 4) (.wire
  5) [(4,5)] false) (.node (.wire 6) (.wire 7) [(6,7)] false) [(4,6),(5,7)] false) [(0,4),(1,5),
  (2,6),(3,7)] false) (.node (.node (.node (.wire 8) (.wire 9) [(8,9)] false) (.node (.wire 10)
  (.wire 11) [(10,11)] false) [(8,10),(9,11)] false) (.node (.node (.wire 12) (.wire 13) [(12,
  13)] false) (.node (.wire 14) (.wire 15) [(14,15)] false) [(12,14),(13,15)] false) [(8,12),(9,
  13),(10,14),(11,15)] false) [(0,8),(1,9),(2,10),(3,11),(4,12),(5,13),(6,14),(7,15)] true)
  (.node (.node (.node (.node (.wire 16) (.wire 17) [(16,17)] false) (.node (.wire 18) (.wire 19)
  [(18,19)] false) [(16,18),(17,19)] false) (.node (.node (.wire 20) (.wire 21) [(20,21)] false)
  (.node (.wire 22) (.wire 23) [(22,23)] false) [(20,22),(21,23)] false) [(16,20),(17,21),(18,22),
  (19,23)] false) (.node (.node (.node (.wire 24) (.wire 25) [(24,25)] false) (.node (.wire 26)
  (.wire 27) [(26,27)] false) [(24,26),(25,27)] false) (.node (.node (.wire 28) (.wire 29) [(28,
  29)] false) (.node (.wire 30) (.wire 31) [(30,31)] false) [(28,30),(29,31)] false) [(24,28),(25,
  29),(26,30),(27,31)] false) [(16,24),(17,25),(18,26),(19,27),(20,28),(21,29),(22,30),(23,31)]
  true) [(0,16),(1,17),(2,18),(3,19),(4,20),(5,21),(6,22),(7,23),(8,24),(9,25),(10,26),(11,27),
  (12,28),(13,29),(14,30),(15,31),(1,2),(3,12),(4,8),(5,10),(6,9),(7,11),(13,14),(17,18),(19,28),
  (20,24),(21,26),(22,25),(23,27),(29,30),(3,6),(7,13),(21,22),(23,29),(25,26),(11,25)] false)
  (.node (.node (.node (.wire 32) (.wire 35) [(32,35)] false) (.wire 34) [(32,34)] false) (.node
  (.wire 33) (.wire 36) [(33,36)] false) [(33,35),(34,36),(32,33),(35,36),(33,34),(34,35)] false)
  [(0,32),(31,36),(1,33),(18,35),(20,34),(12,31),(16,32),(2,20),(17,33),(19,34),(28,35),(4,16),
  (12,32),(21,31),(8,17),(13,28),(14,33),(15,35),(18,20),(3,12),(9,21),(10,32),(25,31),(2,8),(5,
  18),(7,20),(14,24),(15,23),(22,33),(27,35),(3,16),(10,19),(30,31),(32,34),(6,14),(7,17),(12,18),
  (13,22),(20,24),(25,33),(1,3),(5,16),(9,10),(11,19),(21,32),(26,34),(27,30),(31,35),(14,18),(15,
  22),(17,20),(23,33),(24,28),(1,4),(3,5),(6,9),(10,21),(11,13),(12,16),(19,32),(25,26),(29,34),
  (15,24),(22,28),(23,27),(2,4),(5,8),(7,16),(10,17),(11,14),(13,18),(19,25),(20,21),(26,32),(30,
  34),(23,29),(3,4),(6,7),(8,12),(9,16),(10,11),(13,17),(14,20),(15,19),(18,21),(22,25),(24,26),
  (28,32),(30,33),(31,34),(4,5),(6,8),(7,9),(10,12),(11,14),(13,16),(15,17),(18,20),(19,22),(21,
  24),(23,25),(26,28),(27,30),(29,32),(31,33),(5,6),(7,10),(9,12),(11,13),(14,16),(15,18),(17,20),
  (19,21),(22,24),(23,26),(25,28),(27,29),(30,32),(7,8),(9,10),(11,12),(13,14),(15,16),(17,18),
  (19,20),(21,22),(23,24),(25,26),(27,28),(29,30),(31,32)] false)

theorem net37_sorts01 : Sorts01 37 net37 :=
  sorts01_of_check (p := plan37) (by decide +kernel)

/-- Plan for `net38`. -/
def plan38 : Plan := (.node (.node (.node (.node (.node (.node (.wire 0) (.wire 1) [(0,1)] false)
  (.node (.wire 2) (.wire 3) [(2,3)] false) [(0,2),(1,3)] false) (.node (.node (.wire 4) (.wire
  5) [(4,5)] false) (.node (.wire 6) (.wire 7) [(6,7)] false) [(4,6),(5,7)] false) [(0,4),(1,5),
  (2,6),(3,7)] false) (.node (.node (.node (.wire 8) (.wire 9) [(8,9)] false) (.node (.wire 10)
  (.wire 11) [(10,11)] false) [(8,10),(9,11)] false) (.node (.node (.wire 12) (.wire 13) [(12,
  13)] false) (.node (.wire 14) (.wire 15) [(14,15)] false) [(12,14),(13,15)] false) [(8,12),(9,
  13),(10,14),(11,15)] false) [(0,8),(1,9),(2,10),(3,11),(4,12),(5,13),(6,14),(7,15)] true)
  (.node (.node (.node (.node (.wire 22) (.wire 23) [(22,23)] false) (.node (.wire 24) (.wire 25)
  [(24,25)] false) [(22,24),(23,25)] false) (.node (.node (.wire 26) (.wire 27) [(26,27)] false)
  (.node (.wire 28) (.wire 29) [(28,29)] false) [(26,28),(27,29)] false) [(22,26),(23,27),(24,28),
  (25,29)] false) (.node (.node (.node (.wire 30) (.wire 31) [(30,31)] false) (.node (.wire 32)
  (.wire 33) [(32,33)] false) [(30,32),(31,33)] false) (.node (.node (.wire 34) (.wire 35) [(34,
  35)] false) (.node (.wire 36) (.wire 37) [(36,37)] false) [(34,36),(35,37)] false) [(30,34),(31,
  35),(32,36),(33,37)] false) [(22,30),(23,31),(24,32),(25,33),(26,34),(27,35),(28,36),(29,37)]
  true) [(0,22),(1,23),(2,24),(3,25),(4,26),(5,27),(6,28),(7,29),(8,30),(9,31),(10,32),(11,33),
  (12,34),(13,35),(14,36),(15,37),(1,2),(3,12),(4,8),(5,10),(6,9),(7,11),(13,14),(23,24),(25,34),
  (26,30),(27,32),(28,31),(29,33),(35,36),(5,6),(7,13),(9,10),(24,30),(27,28),(31,32),(6,22),(15,
  31)] false) (.node (.node (.node (.wire 16) (.wire 17) [(16,17)] false) (.node (.wire 20)
  (.wire 21) [(20,21)] false) [(16,20),(17,21)] false) (.node (.wire 18) (.wire 19) [(18,19)]
  false) [(16,18),(19,21),(17,19),(18,20),(17,18),(19,20)] false) [(4,17),(11,18),(14,21),(16,23),
  (19,26),(20,33),(3,19),(5,17),(8,16),(9,23),(14,28),(18,34),(20,32),(21,29),(4,6),(11,22),(15,
  26),(31,33),(1,8),(12,14),(13,20),(17,24),(23,25),(29,36),(2,11),(7,15),(22,30),(26,35),(0,1),
  (3,8),(10,12),(13,19),(18,24),(25,27),(29,34),(36,37),(2,6),(11,16),(14,22),(15,23),(21,26),(31,
  35),(1,4),(9,13),(10,17),(12,18),(19,25),(20,27),(24,28),(33,36),(2,3),(5,11),(7,15),(22,30),
  (26,32),(34,35),(8,9),(12,17),(13,16),(14,19),(18,23),(20,25),(21,24),(28,29),(2,4),(3,5),(6,
  11),(26,31),(32,34),(33,35),(7,12),(9,10),(13,14),(15,17),(16,19),(18,21),(20,22),(23,24),(25,
  30),(27,28),(3,4),(6,8),(29,31),(33,34),(5,9),(7,13),(10,11),(12,16),(14,15),(17,19),(18,20),
  (21,25),(22,23),(24,30),(26,27),(28,32),(4,6),(31,33),(7,10),(8,9),(11,13),(12,14),(15,18),(16,
  17),(19,22),(20,21),(23,25),(24,26),(27,30),(28,29),(5,6),(31,32),(7,8),(9,10),(11,12),(13,14),
  (15,16),(17,18),(19,20),(21,22),(23,24),(25,26),(27,28),(29,30),(6,7),(8,9),(10,11),(12,13),(14,
  15),(16,17),(18,19),(20,21),(22,23),(24,25),(26,27),(28,29),(30,31)] false)

theorem net38_sorts01 : Sorts01 38 net38 :=
  sorts01_of_check (p := plan38) (by decide +kernel)

/-- Plan for `net39`. -/
def plan39 : Plan := (.node (.node (.node (.node (.node (.node (.wire 15) (.wire 38) [(15,38)]
  false) (.node (.wire 36) (.wire 37) [(36,37)] false) [(15,36),(37,38)] false) (.node (.node
  (.wire 32) (.wire 33) [(32,33)] false) (.node (.wire 34) (.wire 35) [(34,35)] false) [(32,34),
  (33,35)] false) [(15,32),(33,37),(34,36),(35,38)] false) (.node (.node (.node (.wire 24) (.wire
  25) [(24,25)] false) (.node (.wire 26) (.wire 27) [(26,27)] false) [(24,26),(25,27)] false)
  (.node (.node (.wire 28) (.wire 29) [(28,29)] false) (.node (.wire 30) (.wire 31) [(30,31)]
  false) [(28,30),(29,31)] false) [(24,28),(25,29),(26,30),(27,31)] false) [(15,24),(25,33),(26,
  34),(27,35),(28,32),(29,37),(30,36),(31,38)] true) (.node (.node (.node (.node (.wire 7) (.wire
  14) [(7,14)] false) (.node (.wire 12) (.wire 13) [(12,13)] false) [(7,12),(13,14)] false)
  (.node (.node (.wire 8) (.wire 9) [(8,9)] false) (.node (.wire 10) (.wire 11) [(10,11)] false)
  [(8,10),(9,11)] false) [(7,8),(9,13),(10,12),(11,14)] false) (.node (.node (.node (.wire 3)
  (.wire 6) [(3,6)] false) (.node (.wire 4) (.wire 5) [(4,5)] false) [(3,4),(5,6)] false) (.node
  (.node (.wire 1) (.wire 2) [(1,2)] false) (.wire 0) [(0,1)] false) [(0,3),(1,4),(2,5)] false)
  [(0,7),(1,10),(2,9),(3,8),(4,12),(5,13),(6,11)] true) [(0,15),(1,26),(2,25),(3,28),(4,30),(5,
  29),(6,27),(7,24),(8,32),(9,33),(10,34),(11,35),(12,36),(13,37),(14,31),(1,2),(4,9),(5,10),(6,
  8),(12,13),(25,26),(27,32),(29,34),(30,33),(36,37),(4,6),(5,25),(8,9),(13,34),(27,30),(32,33)]
  false) (.node (.node (.node (.wire 16) (.wire 17) [(16,17)] false) (.node (.wire 18) (.wire 19)
  [(18,19)] false) [(16,18),(17,19)] false) (.node (.node (.wire 20) (.wire 21) [(20,21)] false)
  (.node (.wire 22) (.wire 23) [(22,23)] false) [(20,22),(21,23)] false) [(16,20),(17,21),(18,22),
  (19,23),(17,20),(19,22)] true) [(7,16),(14,21),(18,24),(23,31),(4,17),(9,20),(19,27),(22,33),(3,
  18),(10,24),(14,29),(15,16),(21,35),(23,38),(1,4),(6,9),(13,22),(17,25),(27,32),(33,37),(7,15),
  (10,16),(11,21),(18,28),(23,29),(31,38),(14,19),(20,24),(2,6),(32,36),(0,7),(3,15),(10,18),(11,
  12),(21,29),(26,28),(31,35),(5,14),(8,19),(9,16),(20,30),(23,27),(24,34),(3,7),(10,15),(12,25),
  (13,26),(29,31),(35,38),(4,5),(6,18),(8,17),(11,23),(16,28),(21,32),(22,30),(33,34),(1,3),(2,
  15),(9,13),(12,19),(20,26),(25,27),(29,36),(37,38),(4,10),(5,8),(11,17),(16,18),(21,23),(22,28),
  (30,33),(31,34),(2,7),(6,9),(12,14),(13,20),(19,25),(24,26),(27,32),(35,36),(2,3),(6,10),(9,15),
  (11,12),(13,16),(14,17),(18,20),(19,21),(22,24),(23,25),(26,28),(27,29),(31,32),(36,37),(3,4),
  (5,9),(8,15),(11,13),(12,18),(14,16),(17,20),(19,22),(21,26),(23,24),(25,28),(27,30),(29,33),
  (34,36),(4,7),(5,6),(8,9),(10,11),(12,14),(13,15),(16,17),(18,19),(20,21),(22,23),(24,26),(25,
  27),(28,31),(29,30),(32,33),(34,35),(6,7),(8,10),(9,11),(12,13),(14,15),(16,18),(17,19),(20,22),
  (21,23),(24,25),(26,27),(28,29),(30,31),(32,34),(5,6),(7,8),(9,10),(11,12),(13,14),(15,16),(17,
  18),(19,20),(21,22),(23,24),(25,26),(27,28),(29,30),(31,32),(33,34)] false)

theorem net39_sorts01 : Sorts01 39 net39 :=
  sorts01_of_check (p := plan39) (by decide +kernel)

/-- Plan for `net40`. -/
def plan40 : Plan := (.node (.node (.node (.node (.node (.node (.wire 0) (.wire 1) [(0,1)] false)
  (.node (.wire 2) (.wire 3) [(2,3)] false) [(0,2),(1,3)] false) (.node (.node (.wire 4) (.wire
  5) [(4,5)] false) (.node (.wire 6) (.wire 7) [(6,7)] false) [(4,6),(5,7)] false) [(0,4),(1,5),
  (2,6),(3,7)] false) (.node (.node (.node (.wire 8) (.wire 9) [(8,9)] false) (.node (.wire 10)
  (.wire 11) [(10,11)] false) [(8,10),(9,11)] false) (.node (.node (.wire 12) (.wire 13) [(12,
  13)] false) (.node (.wire 14) (.wire 15) [(14,15)] false) [(12,14),(13,15)] false) [(8,12),(9,
  13),(10,14),(11,15)] false) [(0,8),(1,9),(2,10),(3,11),(4,12),(5,13),(6,14),(7,15)] true)
  (.node (.node (.node (.node (.wire 24) (.wire 25) [(24,25)] false) (.node (.wire 26) (.wire 27)
  [(26,27)] false) [(24,26),(25,27)] false) (.node (.node (.wire 28) (.wire 29) [(28,29)] false)
  (.node (.wire 30) (.wire 31) [(30,31)] false) [(28,30),(29,31)] false) [(24,28),(25,29),(26,30),
  (27,31)] false) (.node (.node (.node (.wire 32) (.wire 33) [(32,33)] false) (.node (.wire 34)
  (.wire 35) [(34,35)] false) [(32,34),(33,35)] false) (.node (.node (.wire 36) (.wire 37) [(36,
  37)] false) (.node (.wire 38) (.wire 39) [(38,39)] false) [(36,38),(37,39)] false) [(32,36),(33,
  37),(34,38),(35,39)] false) [(24,32),(25,33),(26,34),(27,35),(28,36),(29,37),(30,38),(31,39)]
  true) [(0,24),(1,25),(2,26),(3,27),(4,28),(5,29),(6,30),(7,31),(8,32),(9,33),(10,34),(11,35),
  (12,36),(13,37),(14,38),(15,39),(1,2),(3,12),(5,10),(6,9),(13,14),(25,26),(27,36),(29,34),(30,
  33),(37,38),(3,6),(5,25),(9,12),(14,34),(27,30),(33,36)] false) (.node (.node (.node (.wire 16)
  (.wire 17) [(16,17)] false) (.node (.wire 18) (.wire 19) [(18,19)] false) [(16,18),(17,19)]
  false) (.node (.node (.wire 20) (.wire 21) [(20,21)] false) (.node (.wire 22) (.wire 23) [(22,
  23)] false) [(20,22),(21,23)] false) [(16,20),(17,21),(18,22),(19,23),(17,20),(19,22)] true)
  [(7,21),(8,16),(18,32),(23,31),(3,17),(12,20),(19,27),(22,36),(4,18),(7,29),(10,32),(15,23),(16,
  24),(21,35),(1,3),(6,12),(14,22),(17,25),(27,33),(36,38),(8,16),(10,24),(11,21),(15,29),(18,28),
  (23,31),(7,19),(20,32),(2,6),(33,37),(0,8),(4,16),(10,18),(11,13),(21,29),(23,35),(26,28),(31,
  39),(5,7),(9,19),(12,24),(15,27),(20,30),(32,34),(4,8),(10,16),(13,25),(14,26),(23,29),(31,35),
  (3,5),(6,18),(9,17),(11,15),(21,33),(22,30),(24,28),(34,36),(1,4),(2,16),(12,14),(13,19),(20,
  26),(23,37),(25,27),(35,38),(3,10),(5,9),(11,17),(15,21),(18,24),(22,28),(29,36),(30,34),(2,8),
  (6,12),(7,13),(14,20),(19,25),(26,32),(27,33),(31,37),(2,4),(6,10),(7,11),(12,16),(13,17),(14,
  18),(15,19),(20,24),(21,25),(22,26),(23,27),(28,32),(29,33),(35,37),(3,4),(5,12),(7,14),(9,16),
  (11,20),(13,18),(15,22),(17,24),(19,28),(21,26),(23,30),(25,32),(27,34),(35,36),(4,8),(5,6),(7,
  10),(9,12),(11,13),(14,16),(15,20),(17,18),(19,24),(21,22),(23,25),(26,28),(27,30),(29,32),(31,
  35),(33,34),(6,8),(7,9),(10,12),(11,14),(13,16),(15,17),(18,20),(19,21),(22,24),(23,26),(25,28),
  (27,29),(30,32),(31,33),(5,6),(7,8),(9,10),(11,12),(13,14),(15,16),(17,18),(19,20),(21,22),(23,
  24),(25,26),(27,28),(29,30),(31,32),(33,34)] false)

theorem net40_sorts01 : Sorts01 40 net40 :=
  sorts01_of_check (p := plan40) (by decide +kernel)

end CppSort
