import Verif.Base.Strands
import Verif.Model.NetData6
/-
The networks for 57 to 64 elements sort every 0-1 input (checked by following all inputs).
-/
set_option autoImplicit false
set_option maxRecDepth 100000

namespace CppSort

/-- Plan for `net57`. -/
def plan57 : Plan := (.node (.node (.node (.node (.node (.node (.wire 27) (.wire 40) [(27,40)]
  false) (.node (.wire 34) (.wire 35) [(34,35)] false) [(27,34),(35,40)] false) (.node (.node
  (.wire 28) (.wire 39) [(28,39)] false) (.node (.wire 29) (.wire 33) [(29,33)] false) [(28,29),
  (33,39)] false) [(27,28),(39,40)] true) (.node (.node (.node (.wire 25) (.wire 38) [(25,38)]
  false) (.node (.wire 30) (.wire 31) [(30,31)] false) [(25,30),(31,38)] false) (.node (.node
  (.wire 26) (.wire 37) [(26,37)] false) (.node (.wire 32) (.wire 36) [(32,36)] false) [(26,32),
  (36,37)] false) [(25,26),(37,38)] true) [(29,30),(31,33),(32,34),(35,36),(25,27),(26,28),(37,
  39),(38,40),(29,35),(30,36),(31,32),(33,34),(26,27),(28,37),(38,39),(29,31),(30,32),(33,35),(34,
  36),(26,29),(27,31),(30,33),(32,35),(34,38),(36,39),(27,29),(28,31),(34,37),(36,38),(28,30),(31,
  33),(32,34),(35,37),(28,29),(30,31),(32,33),(34,35),(36,37),(31,32),(33,34)] true) (.node
  (.node (.node (.node (.wire 43) (.wire 56) [(43,56)] false) (.node (.wire 50) (.wire 51) [(50,
  51)] false) [(43,50),(51,56)] false) (.node (.node (.wire 44) (.wire 55) [(44,55)] false)
  (.node (.wire 45) (.wire 49) [(45,49)] false) [(44,45),(49,55)] false) [(43,44),(55,56)] true)
  (.node (.node (.node (.wire 41) (.wire 54) [(41,54)] false) (.node (.wire 46) (.wire 47) [(46,
  47)] false) [(41,46),(47,54)] false) (.node (.node (.wire 42) (.wire 53) [(42,53)] false)
  (.node (.wire 48) (.wire 52) [(48,52)] false) [(42,48),(52,53)] false) [(41,42),(53,54)] true)
  [(45,46),(47,49),(48,50),(51,52),(41,43),(42,44),(53,55),(54,56),(45,51),(46,52),(47,48),(49,
  50),(42,43),(44,53),(54,55),(45,47),(46,48),(49,51),(50,52),(42,45),(43,47),(46,49),(48,51),(50,
  54),(52,55),(43,45),(44,47),(50,53),(52,54),(44,46),(47,49),(48,50),(51,53),(44,45),(46,47),(48,
  49),(50,51),(52,53),(47,48),(49,50)] true) [(40,56),(39,55),(38,54),(30,46),(35,51),(36,52),(37,
  53),(31,47),(32,48),(34,50)] false) (.node (.node (.node (.node (.node (.wire 17) (.wire 23)
  [(17,23)] false) (.wire 16) [(16,23)] false) (.node (.wire 12) (.wire 24) [(12,24)] false) [(12,
  16),(23,24)] false) (.node (.node (.node (.wire 13) (.wire 22) [(13,22)] false) (.node (.wire
  18) (.wire 20) [(18,20)] false) [(13,18),(20,22)] false) (.node (.node (.wire 14) (.wire 21)
  [(14,21)] false) (.node (.wire 15) (.wire 19) [(15,19)] false) [(14,15),(19,21)] false) [(13,
  14),(15,18),(19,20),(21,22)] true) [(16,18),(17,21),(20,23),(22,24),(12,17),(15,20),(16,19),(18,
  23),(21,22),(12,13),(14,17),(18,21),(19,20),(22,23),(13,15),(14,16),(17,18),(21,22),(13,14),(15,
  16),(17,19),(18,20),(14,15),(16,17),(18,19),(20,21),(15,16),(17,18)] true) (.node (.node (.node
  (.node (.wire 0) (.wire 8) [(0,8)] false) (.node (.wire 1) (.wire 7) [(1,7)] false) [(0,1),(7,
  8)] false) (.node (.node (.wire 2) (.wire 6) [(2,6)] false) (.node (.wire 5) (.wire 9) [(5,9)]
  false) [(2,5),(6,9)] false) [(0,2),(1,6),(1,2)] true) (.node (.node (.wire 3) (.wire 11) [(3,
  11)] false) (.node (.wire 4) (.wire 10) [(4,10)] false) [(3,4),(10,11)] false) [(5,10),(9,11),
  (0,3),(4,6),(5,7),(8,11),(9,10),(1,4),(3,5),(6,8),(7,10),(1,3),(2,5),(6,9),(8,10),(2,3),(4,5),
  (6,7),(8,9),(4,6),(5,7),(3,4),(5,6),(7,8)] true) [(11,23),(10,22),(7,19),(8,24),(9,21),(5,17),
  (6,18)] false) [(1,26),(12,41),(2,27),(23,56),(13,42),(22,55),(0,29),(3,28),(14,43),(4,33),(8,
  37),(10,51),(11,52),(15,44),(16,45),(19,40),(20,49),(21,54),(24,53),(5,30),(6,31),(7,32),(9,50),
  (17,38),(18,39),(12,25),(1,13),(26,42),(2,14),(27,43),(0,16),(3,15),(4,41),(10,35),(11,36),(23,
  40),(24,37),(28,44),(29,45),(33,49),(9,34),(21,38),(22,39),(30,46),(31,47),(32,48),(13,26),(14,
  27),(20,25),(0,12),(8,29),(15,28),(24,45),(33,41),(35,43),(36,44),(37,49),(40,52),(17,30),(18,
  31),(19,32),(21,46),(22,47),(23,48),(34,42),(38,50),(39,51),(4,20),(5,13),(6,14),(10,27),(7,15),
  (9,26),(11,28),(16,29),(25,33),(37,45),(40,44),(52,55),(21,30),(22,31),(23,32),(38,42),(39,43),
  (51,53),(4,12),(10,14),(27,35),(8,16),(9,13),(11,15),(20,25),(24,29),(26,34),(28,36),(33,41),
  (44,48),(30,38),(31,39),(32,40),(42,46),(43,47),(53,55),(1,4),(18,27),(3,9),(8,20),(16,25),(17,
  26),(19,28),(21,34),(22,35),(23,36),(24,33),(29,41),(48,54),(38,42),(39,43),(40,44),(47,49),(55,
  56),(14,18),(8,12),(13,17),(15,19),(16,20),(21,26),(22,27),(23,28),(24,25),(29,33),(30,34),(31,
  35),(32,36),(37,41),(48,51),(53,54),(40,46),(43,45),(44,50),(2,8),(6,12),(7,13),(10,16),(11,17),
  (14,20),(15,21),(18,24),(19,26),(22,25),(23,30),(27,29),(28,34),(31,33),(32,38),(35,37),(36,42),
  (39,41),(52,53),(44,47),(45,46),(49,50),(2,4),(3,8),(5,6),(7,10),(9,12),(11,14),(13,16),(15,20),
  (17,18),(19,21),(22,24),(23,27),(25,26),(28,31),(29,30),(32,34),(33,35),(36,37),(38,39),(40,41),
  (42,43),(53,54),(44,45),(46,47),(48,49),(50,51),(3,5),(6,8),(7,9),(10,12),(11,13),(14,16),(15,
  17),(18,20),(19,22),(21,24),(23,25),(26,27),(28,29),(30,31),(32,33),(34,35),(36,38),(37,39),(40,
  42),(41,43),(45,46),(47,48),(49,50),(51,52),(3,4),(5,6),(7,8),(9,10),(11,12),(13,14),(15,16),
  (17,18),(19,20),(21,22),(23,24),(25,26),(27,28),(29,30),(31,32),(33,34),(35,36),(37,38),(39,40),
  (41,42),(43,44)] false)

theorem net57_sorts01 : Sorts01 57 net57 :=
  sorts01_of_check (p := plan57) (by decide +kernel)

/-- Plan for `net58`. -/
def plan58 : Plan := (.node (.node (.node (.node (.node (.node (.wire 28) (.wire 41) [(28,41)]
  false) (.node (.wire 35) (.wire 36) [(35,36)] false) [(28,35),(36,41)] false) (.node (.node
  (.wire 29) (.wire 40) [(29,40)] false) (.node (.wire 30) (.wire 34) [(30,34)] false) [(29,30),
  (34,40)] false) [(28,29),(40,41)] true) (.node (.node (.node (.wire 26) (.wire 39) [(26,39)]
  false) (.node (.wire 31) (.wire 32) [(31,32)] false) [(26,31),(32,39)] false) (.node (.node
  (.wire 27) (.wire 38) [(27,38)] false) (.node (.wire 33) (.wire 37) [(33,37)] false) [(27,33),
  (37,38)] false) [(26,27),(38,39)] true) [(30,31),(32,34),(33,35),(36,37),(26,28),(27,29),(38,
  40),(39,41),(30,36),(31,37),(32,33),(34,35),(27,28),(29,38),(39,40),(30,32),(31,33),(34,36),(35,
  37),(27,30),(28,32),(31,34),(33,36),(35,39),(37,40),(28,30),(29,32),(35,38),(37,39),(29,31),(32,
  34),(33,35),(36,38),(29,30),(31,32),(33,34),(35,36),(37,38),(32,33),(34,35)] true) (.node
  (.node (.node (.node (.wire 44) (.wire 57) [(44,57)] false) (.node (.wire 51) (.wire 52) [(51,
  52)] false) [(44,51),(52,57)] false) (.node (.node (.wire 45) (.wire 56) [(45,56)] false)
  (.node (.wire 46) (.wire 50) [(46,50)] false) [(45,46),(50,56)] false) [(44,45),(56,57)] true)
  (.node (.node (.node (.wire 42) (.wire 55) [(42,55)] false) (.node (.wire 47) (.wire 48) [(47,
  48)] false) [(42,47),(48,55)] false) (.node (.node (.wire 43) (.wire 54) [(43,54)] false)
  (.node (.wire 49) (.wire 53) [(49,53)] false) [(43,49),(53,54)] false) [(42,43),(54,55)] true)
  [(46,47),(48,50),(49,51),(52,53),(42,44),(43,45),(54,56),(55,57),(46,52),(47,53),(48,49),(50,
  51),(43,44),(45,54),(55,56),(46,48),(47,49),(50,52),(51,53),(43,46),(44,48),(47,50),(49,52),(51,
  55),(53,56),(44,46),(45,48),(51,54),(53,55),(45,47),(48,50),(49,51),(52,54),(45,46),(47,48),(49,
  50),(51,52),(53,54),(48,49),(50,51)] true) [(28,44),(39,55),(29,45),(36,52),(37,53),(38,54),(32,
  48),(33,49)] false) (.node (.node (.node (.node (.node (.wire 12) (.wire 25) [(12,25)] false)
  (.node (.wire 19) (.wire 20) [(19,20)] false) [(12,19),(20,25)] false) (.node (.node (.wire 13)
  (.wire 24) [(13,24)] false) (.node (.wire 14) (.wire 18) [(14,18)] false) [(13,14),(18,24)]
  false) [(12,13),(24,25)] true) (.node (.node (.node (.wire 10) (.wire 23) [(10,23)] false)
  (.node (.wire 15) (.wire 16) [(15,16)] false) [(10,15),(16,23)] false) (.node (.node (.wire 11)
  (.wire 22) [(11,22)] false) (.node (.wire 17) (.wire 21) [(17,21)] false) [(11,17),(21,22)]
  false) [(10,11),(22,23)] true) [(14,15),(16,18),(17,19),(20,21),(10,12),(11,13),(22,24),(23,25),
  (14,20),(15,21),(16,17),(18,19),(11,12),(13,22),(23,24),(14,16),(15,17),(18,20),(19,21),(11,14),
  (12,16),(15,18),(17,20),(19,23),(21,24),(12,14),(13,16),(19,22),(21,23),(13,15),(16,18),(17,19),
  (20,22),(13,14),(15,16),(17,18),(19,20),(21,22),(16,17),(18,19)] true) (.node (.node (.node
  (.node (.wire 0) (.wire 8) [(0,8)] false) (.node (.wire 2) (.wire 7) [(2,7)] false) [(0,2)]
  false) (.node (.wire 3) (.wire 5) [(3,5)] false) [(5,8),(0,3)] false) (.node (.node (.wire 1)
  (.wire 9) [(1,9)] false) (.node (.wire 4) (.wire 6) [(4,6)] false) [(1,4)] false) [(7,9),(2,4),
  (0,1),(5,7),(6,9),(3,6),(8,9),(1,5),(2,3),(4,8),(6,7),(1,2),(3,5),(4,6),(7,8),(2,3),(4,5),(6,7),
  (3,4),(5,6)] true) [(2,12),(9,23),(3,13),(8,22),(12,20),(13,21)] false) [(10,42),(25,41),(11,
  43),(24,40),(7,57),(2,28),(6,56),(9,39),(23,55),(0,30),(1,31),(14,46),(15,47),(3,29),(4,34),(5,
  35),(8,38),(12,44),(18,50),(19,51),(20,52),(22,54),(13,45),(21,53),(10,26),(11,27),(7,25),(41,
  57),(6,24),(23,39),(40,56),(0,14),(1,15),(30,46),(31,47),(4,42),(5,43),(12,28),(20,36),(22,38),
  (34,50),(35,51),(13,29),(21,37),(25,41),(55,57),(6,16),(7,17),(24,40),(0,10),(1,11),(8,30),(9,
  31),(18,26),(19,27),(23,47),(20,28),(22,46),(34,42),(35,43),(36,44),(38,50),(39,51),(21,29),(37,
  45),(6,32),(7,33),(16,48),(17,49),(40,52),(4,18),(5,19),(14,30),(15,31),(41,53),(26,34),(27,35),
  (28,36),(38,46),(39,47),(29,37),(6,12),(16,32),(17,33),(24,48),(25,49),(52,54),(4,10),(5,11),(7,
  13),(8,14),(9,15),(22,30),(23,31),(53,56),(18,26),(19,27),(34,42),(35,43),(12,20),(24,32),(25,
  33),(40,48),(41,49),(1,4),(13,21),(16,28),(8,18),(9,19),(14,26),(15,27),(17,29),(22,34),(23,35),
  (30,42),(31,43),(24,36),(32,44),(33,45),(48,50),(49,51),(16,20),(25,37),(8,10),(9,11),(14,18),
  (15,19),(17,21),(22,26),(23,27),(30,34),(31,35),(38,42),(39,43),(24,28),(32,36),(40,44),(41,45),
  (49,52),(51,54),(25,29),(33,37),(2,8),(3,9),(6,10),(7,11),(12,14),(13,15),(16,18),(17,19),(20,
  22),(21,23),(44,46),(45,47),(54,55),(24,26),(25,27),(28,30),(29,31),(32,34),(33,35),(36,38),(37,
  39),(40,42),(41,43),(2,4),(3,8),(5,6),(7,12),(9,10),(11,14),(13,16),(15,20),(17,18),(21,22),(45,
  46),(47,50),(53,54),(55,56),(19,24),(23,28),(25,26),(27,29),(30,32),(31,34),(33,36),(35,38),(37,
  40),(39,42),(41,44),(43,48),(3,5),(6,8),(7,9),(10,12),(11,13),(14,16),(15,17),(18,20),(49,50),
  (51,53),(54,55),(19,21),(22,24),(23,25),(26,28),(27,30),(29,32),(31,33),(34,36),(35,37),(38,40),
  (39,41),(42,44),(43,45),(46,48),(3,4),(5,6),(7,8),(9,10),(11,12),(13,14),(15,16),(17,18),(47,
  49),(50,52),(19,20),(21,22),(23,24),(25,26),(27,28),(29,30),(31,32),(33,34),(35,36),(37,38),(39,
  40),(41,42),(43,44),(45,46),(47,48),(51,52)] false)

theorem net58_sorts01 : Sorts01 58 net58 :=
  sorts01_of_check (p := plan58) (by decide +kernel)

/-- Plan for `net59`. -/
def plan59 : Plan := (.node (.node (.node (.node (.node (.node (.wire 29) (.wire 42) [(29,42)]
  false) (.node (.wire 36) (.wire 37) [(36,37)] false) [(29,36),(37,42)] false) (.node (.node
  (.wire 30) (.wire 41) [(30,41)] false) (.node (.wire 31) (.wire 35) [(31,35)] false) [(30,31),
  (35,41)] false) [(29,30),(41,42)] true) (.node (.node (.node (.wire 27) (.wire 40) [(27,40)]
  false) (.node (.wire 32) (.wire 33) [(32,33)] false) [(27,32),(33,40)] false) (.node (.node
  (.wire 28) (.wire 39) [(28,39)] false) (.node (.wire 34) (.wire 38) [(34,38)] false) [(28,34),
  (38,39)] false) [(27,28),(39,40)] true) [(31,32),(33,35),(34,36),(37,38),(27,29),(28,30),(39,
  41),(40,42),(31,37),(32,38),(33,34),(35,36),(28,29),(30,39),(40,41),(31,33),(32,34),(35,37),(36,
  38),(28,31),(29,33),(32,35),(34,37),(36,40),(38,41),(29,31),(30,33),(36,39),(38,40),(30,32),(33,
  35),(34,36),(37,39),(30,31),(32,33),(34,35),(36,37),(38,39),(33,34),(35,36)] true) (.node
  (.node (.node (.node (.wire 45) (.wire 58) [(45,58)] false) (.node (.wire 52) (.wire 53) [(52,
  53)] false) [(45,52),(53,58)] false) (.node (.node (.wire 46) (.wire 57) [(46,57)] false)
  (.node (.wire 47) (.wire 51) [(47,51)] false) [(46,47),(51,57)] false) [(45,46),(57,58)] true)
  (.node (.node (.node (.wire 43) (.wire 56) [(43,56)] false) (.node (.wire 48) (.wire 49) [(48,
  49)] false) [(43,48),(49,56)] false) (.node (.node (.wire 44) (.wire 55) [(44,55)] false)
  (.node (.wire 50) (.wire 54) [(50,54)] false) [(44,50),(54,55)] false) [(43,44),(55,56)] true)
  [(47,48),(49,51),(50,52),(53,54),(43,45),(44,46),(55,57),(56,58),(47,53),(48,54),(49,50),(51,
  52),(44,45),(46,55),(56,57),(47,49),(48,50),(51,53),(52,54),(44,47),(45,49),(48,51),(50,53),(52,
  56),(54,57),(45,47),(46,49),(52,55),(54,56),(46,48),(49,51),(50,52),(53,55),(46,47),(48,49),(50,
  51),(52,53),(54,55),(49,50),(51,52)] true) [(41,57),(40,56),(30,46),(38,54),(39,55),(34,50)]
  false) (.node (.node (.node (.node (.node (.wire 13) (.wire 26) [(13,26)] false) (.node (.wire
  20) (.wire 21) [(20,21)] false) [(13,20),(21,26)] false) (.node (.node (.wire 14) (.wire 25)
  [(14,25)] false) (.node (.wire 15) (.wire 19) [(15,19)] false) [(14,15),(19,25)] false) [(13,
  14),(25,26)] true) (.node (.node (.node (.wire 11) (.wire 24) [(11,24)] false) (.node (.wire
  16) (.wire 17) [(16,17)] false) [(11,16),(17,24)] false) (.node (.node (.wire 12) (.wire 23)
  [(12,23)] false) (.node (.wire 18) (.wire 22) [(18,22)] false) [(12,18),(22,23)] false) [(11,
  12),(23,24)] true) [(15,16),(17,19),(18,20),(21,22),(11,13),(12,14),(23,25),(24,26),(15,21),(16,
  22),(17,18),(19,20),(12,13),(14,23),(24,25),(15,17),(16,18),(19,21),(20,22),(12,15),(13,17),(16,
  19),(18,21),(20,24),(22,25),(13,15),(14,17),(20,23),(22,24),(14,16),(17,19),(18,20),(21,23),(14,
  15),(16,17),(18,19),(20,21),(22,23),(17,18),(19,20)] true) (.node (.node (.node (.node (.wire
  3) (.wire 7) [(3,7)] false) (.node (.wire 5) (.wire 8) [(5,8)] false) [(3,5),(7,8)] false)
  (.node (.node (.wire 2) (.wire 4) [(2,4)] false) (.wire 10) [(4,10)] false) [(2,5),(4,7),(8,
  10)] false) (.node (.node (.wire 0) (.wire 9) [(0,9)] false) (.node (.wire 1) (.wire 6) [(1,6)]
  false) [(0,1),(6,9)] false) [(1,3),(0,4),(5,9),(6,8),(1,2),(3,7),(4,5),(9,10),(0,1),(2,6),(7,8),
  (2,4),(3,6),(5,7),(8,9),(1,2),(3,4),(5,6),(7,8),(2,3),(4,5),(6,7)] true) [(10,25),(9,24),(3,14),
  (8,23),(14,22)] false) [(11,43),(26,42),(12,44),(10,41),(13,45),(25,57),(7,58),(9,40),(24,56),
  (0,31),(1,32),(6,37),(15,47),(16,48),(21,53),(2,33),(3,30),(4,35),(5,36),(8,39),(17,49),(19,51),
  (20,52),(23,55),(14,46),(22,54),(11,27),(12,28),(13,29),(25,41),(7,26),(24,40),(42,58),(0,15),
  (1,16),(6,45),(31,47),(32,48),(37,53),(2,17),(4,43),(5,44),(23,39),(33,49),(35,51),(36,52),(14,
  30),(22,38),(7,18),(21,29),(26,42),(57,58),(0,11),(1,12),(8,31),(9,32),(19,27),(20,28),(24,48),
  (37,45),(41,53),(2,13),(10,33),(23,47),(25,49),(35,43),(36,44),(39,51),(40,52),(22,30),(38,46),
  (6,21),(7,34),(18,50),(4,19),(5,20),(15,31),(16,32),(29,37),(42,54),(17,33),(27,35),(28,36),(39,
  47),(40,48),(41,49),(30,38),(18,34),(26,50),(4,11),(5,12),(6,13),(7,14),(8,15),(9,16),(21,29),
  (23,31),(24,32),(37,45),(54,56),(10,17),(19,27),(20,28),(25,33),(35,43),(36,44),(49,55),(26,34),
  (42,50),(1,4),(14,22),(56,57),(8,19),(9,20),(10,21),(15,27),(16,28),(17,29),(18,30),(23,35),(24,
  36),(25,37),(31,43),(32,44),(33,45),(54,55),(34,46),(50,53),(26,38),(8,11),(9,12),(10,13),(15,
  19),(16,20),(17,21),(18,22),(23,27),(24,28),(25,29),(31,35),(32,36),(33,37),(39,43),(40,44),(41,
  45),(42,46),(50,52),(26,30),(34,38),(53,55),(2,8),(3,9),(6,11),(7,12),(10,15),(13,19),(14,16),
  (17,23),(18,20),(21,27),(22,24),(25,31),(29,35),(33,39),(37,43),(41,47),(45,51),(46,48),(52,54),
  (26,28),(30,32),(34,36),(38,40),(42,44),(55,56),(2,4),(3,5),(6,8),(7,9),(10,11),(12,13),(14,15),
  (16,19),(17,18),(20,22),(21,23),(24,27),(41,43),(49,51),(48,50),(53,54),(25,26),(28,31),(29,30),
  (32,35),(33,34),(36,39),(37,38),(40,42),(44,45),(46,47),(3,6),(5,8),(7,10),(9,11),(12,14),(13,
  15),(16,17),(18,19),(20,21),(22,23),(24,25),(26,27),(28,29),(30,31),(32,33),(34,35),(36,37),(38,
  39),(40,41),(42,43),(44,46),(45,47),(48,49),(50,51),(3,4),(5,6),(7,8),(9,10),(11,12),(13,14),
  (15,16),(17,18),(19,20),(21,22),(23,24),(25,26),(27,28),(29,30),(31,32),(33,34),(35,36),(37,38),
  (39,40),(41,42),(43,44),(45,46),(47,48),(49,50),(51,52)] false)

theorem net59_sorts01 : Sorts01 59 net59 :=
  sorts01_of_check (p := plan59) (by decide +kernel)

/-- Plan for `net60`. -/
def plan60 : Plan := (.node (.node (.node (.node (.node (.node (.wire 3) (.wire 10) [(3,10)]
  false) (.node (.wire 7) (.wire 12) [(7,12)] false) [(3,7),(10,12)] false) (.node (.node (.wire
  4) (.wire 14) [(4,14)] false) (.wire 0) [(0,14)] false) [(0,7),(4,10),(12,14)] false) (.node
  (.node (.node (.wire 1) (.wire 2) [(1,2)] false) (.node (.wire 5) (.wire 8) [(5,8)] false) [(1,
  5),(2,8)] false) (.node (.node (.wire 6) (.wire 13) [(6,13)] false) (.node (.wire 9) (.wire 11)
  [(9,11)] false) [(6,9),(11,13)] false) [(1,6),(2,9),(5,11),(8,13)] true) [(0,6),(2,4),(3,5),(7,
  11),(8,10),(9,12),(13,14),(0,3),(1,2),(4,7),(5,9),(6,8),(10,11),(12,13),(0,1),(2,3),(4,6),(7,9),
  (10,12),(11,13),(1,2),(3,5),(8,10),(11,12),(3,4),(5,6),(7,8),(9,10),(2,3),(4,5),(6,7),(8,9),(10,
  11),(5,6),(7,8)] true) (.node (.node (.node (.node (.wire 18) (.wire 25) [(18,25)] false)
  (.node (.wire 22) (.wire 27) [(22,27)] false) [(18,22),(25,27)] false) (.node (.node (.wire 19)
  (.wire 29) [(19,29)] false) (.wire 15) [(15,29)] false) [(15,22),(19,25),(27,29)] false) (.node
  (.node (.node (.wire 16) (.wire 17) [(16,17)] false) (.node (.wire 20) (.wire 23) [(20,23)]
  false) [(16,20),(17,23)] false) (.node (.node (.wire 21) (.wire 28) [(21,28)] false) (.node
  (.wire 24) (.wire 26) [(24,26)] false) [(21,24),(26,28)] false) [(16,21),(17,24),(20,26),(23,
  28)] true) [(15,21),(17,19),(18,20),(22,26),(23,25),(24,27),(28,29),(15,18),(16,17),(19,22),(20,
  24),(21,23),(25,26),(27,28),(15,16),(17,18),(19,21),(22,24),(25,27),(26,28),(16,17),(18,20),(23,
  25),(26,27),(18,19),(20,21),(22,23),(24,25),(17,18),(19,20),(21,22),(23,24),(25,26),(20,21),(22,
  23)] true) [(3,18),(11,26)] false) (.node (.node (.node (.node (.node (.wire 33) (.wire 40)
  [(33,40)] false) (.node (.wire 37) (.wire 42) [(37,42)] false) [(33,37),(40,42)] false) (.node
  (.node (.wire 34) (.wire 44) [(34,44)] false) (.wire 30) [(30,44)] false) [(30,37),(34,40),(42,
  44)] false) (.node (.node (.node (.wire 31) (.wire 32) [(31,32)] false) (.node (.wire 35)
  (.wire 38) [(35,38)] false) [(31,35),(32,38)] false) (.node (.node (.wire 36) (.wire 43) [(36,
  43)] false) (.node (.wire 39) (.wire 41) [(39,41)] false) [(36,39),(41,43)] false) [(31,36),(32,
  39),(35,41),(38,43)] true) [(30,36),(32,34),(33,35),(37,41),(38,40),(39,42),(43,44),(30,33),(31,
  32),(34,37),(35,39),(36,38),(40,41),(42,43),(30,31),(32,33),(34,36),(37,39),(40,42),(41,43),(31,
  32),(33,35),(38,40),(41,42),(33,34),(35,36),(37,38),(39,40),(32,33),(34,35),(36,37),(38,39),(40,
  41),(35,36),(37,38)] true) (.node (.node (.node (.node (.wire 48) (.wire 55) [(48,55)] false)
  (.node (.wire 52) (.wire 57) [(52,57)] false) [(48,52),(55,57)] false) (.node (.node (.wire 49)
  (.wire 59) [(49,59)] false) (.wire 45) [(45,59)] false) [(45,52),(49,55),(57,59)] false) (.node
  (.node (.node (.wire 46) (.wire 47) [(46,47)] false) (.node (.wire 50) (.wire 53) [(50,53)]
  false) [(46,50),(47,53)] false) (.node (.node (.wire 51) (.wire 58) [(51,58)] false) (.node
  (.wire 54) (.wire 56) [(54,56)] false) [(51,54),(56,58)] false) [(46,51),(47,54),(50,56),(53,
  58)] true) [(45,51),(47,49),(48,50),(52,56),(53,55),(54,57),(58,59),(45,48),(46,47),(49,52),(50,
  54),(51,53),(55,56),(57,58),(45,46),(47,48),(49,51),(52,54),(55,57),(56,58),(46,47),(48,50),(53,
  55),(56,57),(48,49),(50,51),(52,53),(54,55),(47,48),(49,50),(51,52),(53,54),(55,56),(50,51),(52,
  53)] true) [(33,48),(41,56)] false) [(14,59),(29,44),(0,30),(13,58),(15,45),(28,43),(1,31),(12,
  57),(16,46),(27,42),(2,32),(4,49),(9,39),(10,40),(17,47),(19,34),(24,54),(25,55),(3,33),(5,50),
  (6,51),(7,37),(8,38),(11,41),(18,48),(20,35),(21,36),(22,52),(23,53),(26,56),(14,29),(44,59),(0,
  15),(13,28),(30,45),(43,58),(1,16),(12,27),(31,46),(42,57),(2,17),(4,19),(9,24),(10,25),(32,47),
  (34,49),(39,54),(40,55),(5,20),(6,21),(7,22),(8,23),(11,48),(18,33),(26,41),(35,50),(36,51),(37,
  52),(38,53),(29,44),(15,30),(28,43),(16,31),(27,42),(12,19),(17,32),(24,39),(25,40),(7,18),(11,
  33),(13,20),(14,21),(22,37),(23,38),(26,48),(41,52),(4,15),(9,31),(27,49),(43,54),(44,55),(5,
  16),(6,17),(8,30),(10,32),(19,34),(24,46),(25,47),(28,50),(29,51),(42,53),(11,18),(20,35),(21,
  36),(22,33),(23,45),(26,37),(41,48),(1,4),(54,56),(55,58),(3,5),(8,15),(9,16),(10,17),(13,24),
  (14,25),(19,30),(28,46),(29,47),(34,38),(42,49),(43,50),(44,51),(12,23),(18,22),(20,31),(21,32),
  (26,33),(27,45),(35,39),(36,40),(37,41),(2,8),(5,9),(50,54),(51,57),(12,19),(13,20),(14,21),(23,
  30),(24,31),(25,32),(27,34),(28,35),(29,36),(38,45),(39,46),(40,47),(2,4),(55,57),(12,15),(13,
  16),(14,17),(19,23),(20,24),(21,25),(27,30),(28,31),(29,32),(34,38),(35,39),(36,40),(42,45),(43,
  46),(44,47),(6,12),(7,13),(10,15),(11,16),(14,19),(17,23),(18,20),(21,27),(22,24),(25,30),(26,
  28),(29,34),(31,33),(32,38),(35,37),(36,42),(39,41),(40,45),(43,48),(44,49),(46,52),(47,53),(6,
  8),(7,9),(10,12),(11,15),(13,14),(16,18),(17,19),(20,22),(21,23),(24,27),(25,26),(28,30),(29,
  31),(32,34),(33,35),(36,37),(38,39),(40,42),(41,43),(44,48),(45,46),(47,49),(50,52),(51,53),(3,
  6),(5,8),(7,10),(9,12),(11,13),(14,15),(16,17),(18,19),(20,21),(22,23),(24,25),(26,27),(28,29),
  (30,31),(32,33),(34,35),(36,38),(37,39),(40,41),(42,43),(44,45),(46,48),(47,50),(49,52),(51,54),
  (53,56),(3,4),(5,6),(7,8),(9,10),(11,12),(13,14),(15,16),(17,18),(19,20),(21,22),(23,24),(25,
  26),(27,28),(29,30),(31,32),(33,34),(35,36),(37,38),(39,40),(41,42),(43,44),(45,46),(47,48),(49,
  50),(51,52),(53,54),(55,56)] false)

theorem net60_sorts01 : Sorts01 60 net60 :=
  sorts01_of_check (p := plan60) (by decide +kernel)

/-- Plan for `net61`. -/
def plan61 : Plan := (.node (.node (.node (.node (.node (.node (.wire 47) (.wire 60) [(47,60)]
  false) (.node (.wire 54) (.wire 55) [(54,55)] false) [(47,54),(55,60)] false) (.node (.node
  (.wire 48) (.wire 59) [(48,59)] false) (.node (.wire 49) (.wire 53) [(49,53)] false) [(48,49),
  (53,59)] false) [(47,48),(59,60)] true) (.node (.node (.node (.wire 45) (.wire 58) [(45,58)]
  false) (.node (.wire 50) (.wire 51) [(50,51)] false) [(45,50),(51,58)] false) (.node (.node
  (.wire 46) (.wire 57) [(46,57)] false) (.node (.wire 52) (.wire 56) [(52,56)] false) [(46,52),
  (56,57)] false) [(45,46),(57,58)] true) [(49,50),(51,53),(52,54),(55,56),(45,47),(46,48),(57,
  59),(58,60),(49,55),(50,56),(51,52),(53,54),(46,47),(48,57),(58,59),(49,51),(50,52),(53,55),(54,
  56),(46,49),(47,51),(50,53),(52,55),(54,58),(56,59),(47,49),(48,51),(54,57),(56,58),(48,50),(51,
  53),(52,54),(55,57),(48,49),(50,51),(52,53),(54,55),(56,57),(51,52),(53,54)] true) (.node
  (.node (.node (.node (.wire 3) (.wire 10) [(3,10)] false) (.node (.wire 7) (.wire 12) [(7,12)]
  false) [(3,7),(10,12)] false) (.node (.node (.wire 4) (.wire 14) [(4,14)] false) (.wire 0) [(0,
  14)] false) [(0,7),(4,10),(12,14)] false) (.node (.node (.node (.wire 1) (.wire 2) [(1,2)]
  false) (.node (.wire 5) (.wire 8) [(5,8)] false) [(1,5),(2,8)] false) (.node (.node (.wire 6)
  (.wire 13) [(6,13)] false) (.node (.wire 9) (.wire 11) [(9,11)] false) [(6,9),(11,13)] false)
  [(1,6),(2,9),(5,11),(8,13)] true) [(0,6),(2,4),(3,5),(7,11),(8,10),(9,12),(13,14),(0,3),(1,2),
  (4,7),(5,9),(6,8),(10,11),(12,13),(0,1),(2,3),(4,6),(7,9),(10,12),(11,13),(1,2),(3,5),(8,10),
  (11,12),(3,4),(5,6),(7,8),(9,10),(2,3),(4,5),(6,7),(8,9),(10,11),(5,6),(7,8)] true) [(14,59),
  (13,58),(4,49),(12,57),(5,50),(6,51)] false) (.node (.node (.node (.node (.node (.wire 18)
  (.wire 25) [(18,25)] false) (.node (.wire 22) (.wire 27) [(22,27)] false) [(18,22),(25,27)]
  false) (.node (.node (.wire 19) (.wire 29) [(19,29)] false) (.wire 15) [(15,29)] false) [(15,
  22),(19,25),(27,29)] false) (.node (.node (.node (.wire 16) (.wire 17) [(16,17)] false) (.node
  (.wire 20) (.wire 23) [(20,23)] false) [(16,20),(17,23)] false) (.node (.node (.wire 21) (.wire
  28) [(21,28)] false) (.node (.wire 24) (.wire 26) [(24,26)] false) [(21,24),(26,28)] false)
  [(16,21),(17,24),(20,26),(23,28)] true) [(15,21),(17,19),(18,20),(22,26),(23,25),(24,27),(28,
  29),(15,18),(16,17),(19,22),(20,24),(21,23),(25,26),(27,28),(15,16),(17,18),(19,21),(22,24),(25,
  27),(26,28),(16,17),(18,20),(23,25),(26,27),(18,19),(20,21),(22,23),(24,25),(17,18),(19,20),(21,
  22),(23,24),(25,26),(20,21),(22,23)] true) (.node (.node (.node (.node (.wire 33) (.wire 40)
  [(33,40)] false) (.node (.wire 37) (.wire 42) [(37,42)] false) [(33,37),(40,42)] false) (.node
  (.node (.wire 34) (.wire 44) [(34,44)] false) (.wire 30) [(30,44)] false) [(30,37),(34,40),(42,
  44)] false) (.node (.node (.node (.wire 31) (.wire 32) [(31,32)] false) (.node (.wire 35)
  (.wire 38) [(35,38)] false) [(31,35),(32,38)] false) (.node (.node (.wire 36) (.wire 43) [(36,
  43)] false) (.node (.wire 39) (.wire 41) [(39,41)] false) [(36,39),(41,43)] false) [(31,36),(32,
  39),(35,41),(38,43)] true) [(30,36),(32,34),(33,35),(37,41),(38,40),(39,42),(43,44),(30,33),(31,
  32),(34,37),(35,39),(36,38),(40,41),(42,43),(30,31),(32,33),(34,36),(37,39),(40,42),(41,43),(31,
  32),(33,35),(38,40),(41,42),(33,34),(35,36),(37,38),(39,40),(32,33),(34,35),(36,37),(38,39),(40,
  41),(35,36),(37,38)] true) [(29,44),(28,43),(27,42),(19,34),(20,35),(21,36)] false) [(0,30),(15,
  45),(1,31),(14,29),(16,46),(44,59),(13,28),(43,58),(2,32),(3,33),(9,39),(10,40),(11,41),(17,47),
  (18,48),(25,55),(26,60),(4,19),(7,37),(8,38),(12,27),(23,53),(24,54),(34,49),(42,57),(5,20),(6,
  21),(35,50),(36,51),(0,15),(30,45),(1,16),(29,44),(31,46),(28,43),(2,17),(3,18),(10,25),(11,26),
  (32,47),(33,48),(40,55),(41,60),(7,52),(8,23),(9,24),(12,19),(22,37),(27,42),(38,53),(39,54),
  (13,20),(14,21),(15,30),(16,31),(17,32),(18,33),(25,40),(26,41),(44,55),(58,60),(19,34),(23,38),
  (24,39),(27,49),(28,50),(29,51),(37,56),(42,53),(43,54),(48,52),(20,35),(21,36),(4,15),(5,16),
  (6,17),(8,30),(9,31),(10,32),(25,47),(11,37),(22,48),(23,45),(24,46),(26,52),(34,38),(41,56),
  (42,49),(43,50),(44,51),(54,58),(35,39),(36,40),(1,4),(8,15),(9,16),(10,17),(14,25),(19,30),(29,
  47),(7,22),(11,33),(12,23),(13,24),(20,31),(21,32),(27,45),(28,46),(37,48),(41,52),(50,56),(51,
  57),(2,8),(3,9),(7,18),(12,19),(13,20),(14,21),(23,30),(24,31),(25,32),(27,34),(28,35),(29,36),
  (33,37),(38,45),(39,46),(40,47),(41,48),(51,54),(57,58),(2,4),(5,8),(11,18),(12,15),(13,16),(14,
  17),(19,23),(20,24),(21,25),(22,33),(26,37),(27,30),(28,31),(29,32),(34,38),(35,39),(36,40),(42,
  45),(43,46),(44,47),(51,56),(55,57),(6,12),(7,13),(10,15),(11,16),(14,19),(17,23),(18,22),(21,
  27),(25,30),(26,33),(29,34),(32,38),(36,42),(37,41),(40,45),(43,48),(44,49),(46,52),(47,53),(57,
  60),(6,8),(7,10),(9,12),(11,13),(14,15),(16,19),(18,20),(22,24),(26,28),(29,30),(31,33),(35,37),
  (39,41),(42,43),(44,46),(45,48),(47,50),(49,52),(51,53),(57,58),(59,60),(3,6),(7,12),(11,14),
  (13,15),(17,18),(20,21),(22,23),(24,27),(25,26),(28,31),(32,35),(33,34),(36,39),(37,38),(40,41),
  (44,45),(46,48),(47,52),(53,56),(3,5),(6,8),(7,9),(10,12),(13,14),(16,17),(18,19),(20,22),(21,
  23),(24,25),(26,27),(28,29),(30,31),(32,33),(34,35),(36,37),(38,39),(40,42),(41,43),(45,46),(47,
  49),(50,52),(54,56),(3,4),(7,8),(11,12),(15,16),(17,18),(19,20),(21,22),(23,24),(25,26),(27,28),
  (29,30),(31,32),(33,34),(35,36),(37,38),(39,40),(41,42),(43,44),(47,48),(51,52),(55,56)] false)

theorem net61_sorts01 : Sorts01 61 net61 :=
  sorts01_of_check (p := plan61) (by decide +kernel)

/-- Plan for `net62`. -/
def plan62 : Plan := (.node (.node (.node (.node (.node (.node (.wire 17) (.wire 30) [(17,30)]
  false) (.node (.wire 24) (.wire 25) [(24,25)] false) [(17,24),(25,30)] false) (.node (.node
  (.wire 18) (.wire 29) [(18,29)] false) (.node (.wire 19) (.wire 23) [(19,23)] false) [(18,19),
  (23,29)] false) [(17,18),(29,30)] true) (.node (.node (.node (.wire 15) (.wire 28) [(15,28)]
  false) (.node (.wire 20) (.wire 21) [(20,21)] false) [(15,20),(21,28)] false) (.node (.node
  (.wire 16) (.wire 27) [(16,27)] false) (.node (.wire 22) (.wire 26) [(22,26)] false) [(16,22),
  (26,27)] false) [(15,16),(27,28)] true) [(19,20),(21,23),(22,24),(25,26),(15,17),(16,18),(27,
  29),(28,30),(19,25),(20,26),(21,22),(23,24),(16,17),(18,27),(28,29),(19,21),(20,22),(23,25),(24,
  26),(16,19),(17,21),(20,23),(22,25),(24,28),(26,29),(17,19),(18,21),(24,27),(26,28),(18,20),(21,
  23),(22,24),(25,27),(18,19),(20,21),(22,23),(24,25),(26,27),(21,22),(23,24)] true) (.node
  (.node (.node (.node (.wire 48) (.wire 61) [(48,61)] false) (.node (.wire 55) (.wire 56) [(55,
  56)] false) [(48,55),(56,61)] false) (.node (.node (.wire 49) (.wire 60) [(49,60)] false)
  (.node (.wire 50) (.wire 54) [(50,54)] false) [(49,50),(54,60)] false) [(48,49),(60,61)] true)
  (.node (.node (.node (.wire 46) (.wire 59) [(46,59)] false) (.node (.wire 51) (.wire 52) [(51,
  52)] false) [(46,51),(52,59)] false) (.node (.node (.wire 47) (.wire 58) [(47,58)] false)
  (.node (.wire 53) (.wire 57) [(53,57)] false) [(47,53),(57,58)] false) [(46,47),(58,59)] true)
  [(50,51),(52,54),(53,55),(56,57),(46,48),(47,49),(58,60),(59,61),(50,56),(51,57),(52,53),(54,
  55),(47,48),(49,58),(59,60),(50,52),(51,53),(54,56),(55,57),(47,50),(48,52),(51,54),(53,56),(55,
  59),(57,60),(48,50),(49,52),(55,58),(57,59),(49,51),(52,54),(53,55),(56,58),(49,50),(51,52),(53,
  54),(55,56),(57,58),(52,53),(54,55)] true) [(15,46),(16,47),(17,48),(18,49),(25,56),(26,57),(22,
  53),(23,54),(24,55)] false) (.node (.node (.node (.node (.node (.wire 3) (.wire 10) [(3,10)]
  false) (.node (.wire 7) (.wire 12) [(7,12)] false) [(3,7),(10,12)] false) (.node (.node (.wire
  4) (.wire 14) [(4,14)] false) (.wire 0) [(0,14)] false) [(0,7),(4,10),(12,14)] false) (.node
  (.node (.node (.wire 1) (.wire 2) [(1,2)] false) (.node (.wire 5) (.wire 8) [(5,8)] false) [(1,
  5),(2,8)] false) (.node (.node (.wire 6) (.wire 13) [(6,13)] false) (.node (.wire 9) (.wire 11)
  [(9,11)] false) [(6,9),(11,13)] false) [(1,6),(2,9),(5,11),(8,13)] true) [(0,6),(2,4),(3,5),(7,
  11),(8,10),(9,12),(13,14),(0,3),(1,2),(4,7),(5,9),(6,8),(10,11),(12,13),(0,1),(2,3),(4,6),(7,9),
  (10,12),(11,13),(1,2),(3,5),(8,10),(11,12),(3,4),(5,6),(7,8),(9,10),(2,3),(4,5),(6,7),(8,9),(10,
  11),(5,6),(7,8)] true) (.node (.node (.node (.node (.wire 34) (.wire 41) [(34,41)] false)
  (.node (.wire 38) (.wire 43) [(38,43)] false) [(34,38),(41,43)] false) (.node (.node (.wire 35)
  (.wire 45) [(35,45)] false) (.wire 31) [(31,45)] false) [(31,38),(35,41),(43,45)] false) (.node
  (.node (.node (.wire 32) (.wire 33) [(32,33)] false) (.node (.wire 36) (.wire 39) [(36,39)]
  false) [(32,36),(33,39)] false) (.node (.node (.wire 37) (.wire 44) [(37,44)] false) (.node
  (.wire 40) (.wire 42) [(40,42)] false) [(37,40),(42,44)] false) [(32,37),(33,40),(36,42),(39,
  44)] true) [(31,37),(33,35),(34,36),(38,42),(39,41),(40,43),(44,45),(31,34),(32,33),(35,38),(36,
  40),(37,39),(41,42),(43,44),(31,32),(33,34),(35,37),(38,40),(41,43),(42,44),(32,33),(34,36),(39,
  41),(42,43),(34,35),(36,37),(38,39),(40,41),(33,34),(35,36),(37,38),(39,40),(41,42),(36,37),(38,
  39)] true) [(0,31),(1,32),(2,33),(3,34),(9,40),(10,41),(7,38),(8,39)] false) [(14,60),(29,45),
  (0,15),(13,59),(28,44),(31,46),(1,16),(32,47),(4,50),(11,61),(12,58),(19,35),(27,43),(30,42),(2,
  17),(3,18),(5,51),(6,52),(10,25),(20,36),(21,37),(33,48),(41,56),(7,49),(8,23),(9,24),(22,34),
  (38,57),(39,54),(40,55),(14,29),(45,60),(13,28),(15,31),(44,59),(16,32),(4,19),(11,30),(12,27),
  (35,50),(42,61),(43,58),(5,20),(6,21),(17,33),(25,41),(36,51),(37,52),(7,18),(23,39),(24,40),
  (26,38),(34,53),(29,45),(28,44),(4,15),(12,19),(27,43),(30,42),(59,61),(5,16),(6,17),(8,31),(9,
  32),(10,33),(11,22),(13,20),(14,21),(25,48),(18,26),(23,46),(24,47),(38,49),(45,56),(1,4),(19,
  35),(27,50),(28,51),(29,52),(42,57),(43,54),(44,55),(60,61),(7,11),(8,15),(9,16),(10,17),(14,
  25),(20,36),(21,37),(22,34),(30,53),(12,23),(13,24),(26,38),(19,31),(29,48),(35,39),(43,50),(44,
  51),(45,52),(56,57),(2,8),(3,9),(11,18),(20,32),(21,33),(27,46),(28,47),(30,34),(36,40),(37,41),
  (42,53),(22,26),(52,58),(55,56),(57,60),(2,4),(5,8),(12,19),(13,20),(14,21),(23,31),(24,32),(25,
  33),(27,35),(28,36),(29,37),(30,38),(34,49),(39,46),(40,47),(41,48),(51,53),(18,22),(58,59),(3,
  8),(12,15),(13,16),(14,17),(19,23),(20,24),(21,25),(26,30),(27,31),(28,32),(29,33),(34,38),(35,
  39),(36,40),(37,41),(42,49),(43,46),(44,47),(45,48),(53,55),(56,58),(57,59),(6,12),(7,13),(10,
  15),(11,16),(14,19),(17,23),(18,20),(21,27),(22,24),(25,31),(26,28),(29,35),(30,32),(33,39),(34,
  36),(37,43),(38,40),(41,46),(42,44),(45,50),(47,49),(48,54),(57,58),(3,6),(7,9),(10,12),(11,13),
  (14,15),(16,18),(17,19),(20,22),(21,23),(24,26),(25,27),(28,29),(30,31),(32,33),(34,35),(36,37),
  (38,39),(40,42),(41,43),(44,47),(45,46),(48,50),(49,51),(52,54),(3,5),(6,8),(7,10),(9,12),(11,
  14),(13,15),(16,17),(18,19),(20,21),(22,23),(24,25),(26,27),(28,30),(29,31),(32,34),(33,35),(36,
  38),(37,39),(40,41),(42,43),(44,45),(46,47),(48,49),(50,51),(52,53),(54,55),(3,4),(7,8),(9,10),
  (11,12),(13,14),(15,16),(17,18),(19,20),(21,22),(23,24),(25,26),(27,28),(29,30),(31,32),(33,34),
  (35,36),(37,38),(39,40),(41,42),(43,44),(45,46),(47,48),(49,50),(51,52),(53,54),(55,56)] false)

theorem net62_sorts01 : Sorts01 62 net62 :=
  sorts01_of_check (p := plan62) (by decide +kernel)

/-- Plan for `net63`. -/
def plan63 : Plan := (.node (.node (.node (.node (.node (.node (.wire 33) (.wire 46) [(33,46)]
  false) (.node (.wire 40) (.wire 41) [(40,41)] false) [(33,40),(41,46)] false) (.node (.node
  (.wire 34) (.wire 45) [(34,45)] false) (.node (.wire 35) (.wire 39) [(35,39)] false) [(34,35),
  (39,45)] false) [(33,34),(45,46)] false) (.node (.node (.node (.wire 31) (.wire 44) [(31,44)]
  false) (.node (.wire 36) (.wire 37) [(36,37)] false) [(31,36),(37,44)] false) (.node (.node
  (.wire 32) (.wire 43) [(32,43)] false) (.node (.wire 38) (.wire 42) [(38,42)] false) [(32,38),
  (42,43)] false) [(31,32),(43,44)] false) [(35,36),(37,39),(38,40),(41,42),(31,33),(32,34),(43,
  45),(44,46),(35,41),(36,42),(37,38),(39,40),(32,33),(34,43),(44,45),(35,37),(36,38),(39,41),(40,
  42),(32,35),(33,37),(36,39),(38,41),(40,44),(42,45),(33,35),(34,37),(40,43),(42,44),(34,36),(37,
  39),(38,40),(41,43),(34,35),(36,37),(38,39),(40,41),(42,43),(37,38),(39,40)] true) (.node
  (.node (.node (.node (.wire 49) (.wire 62) [(49,62)] false) (.node (.wire 56) (.wire 57) [(56,
  57)] false) [(49,56),(57,62)] false) (.node (.node (.wire 50) (.wire 61) [(50,61)] false)
  (.node (.wire 51) (.wire 55) [(51,55)] false) [(50,51),(55,61)] false) [(49,50),(61,62)] false)
  (.node (.node (.node (.wire 47) (.wire 60) [(47,60)] false) (.node (.wire 52) (.wire 53) [(52,
  53)] false) [(47,52),(53,60)] false) (.node (.node (.wire 48) (.wire 59) [(48,59)] false)
  (.node (.wire 54) (.wire 58) [(54,58)] false) [(48,54),(58,59)] false) [(47,48),(59,60)] false)
  [(51,52),(53,55),(54,56),(57,58),(47,49),(48,50),(59,61),(60,62),(51,57),(52,58),(53,54),(55,
  56),(48,49),(50,59),(60,61),(51,53),(52,54),(55,57),(56,58),(48,51),(49,53),(52,55),(54,57),(56,
  60),(58,61),(49,51),(50,53),(56,59),(58,60),(50,52),(53,55),(54,56),(57,59),(50,51),(52,53),(54,
  55),(56,57),(58,59),(53,54),(55,56)] true) [(46,62)] false) (.node (.node (.node (.node (.node
  (.wire 17) (.wire 30) [(17,30)] false) (.node (.wire 24) (.wire 25) [(24,25)] false) [(17,24),
  (25,30)] false) (.node (.node (.wire 18) (.wire 29) [(18,29)] false) (.node (.wire 19) (.wire
  23) [(19,23)] false) [(18,19),(23,29)] false) [(17,18),(29,30)] false) (.node (.node (.node
  (.wire 15) (.wire 28) [(15,28)] false) (.node (.wire 20) (.wire 21) [(20,21)] false) [(15,20),
  (21,28)] false) (.node (.node (.wire 16) (.wire 27) [(16,27)] false) (.node (.wire 22) (.wire
  26) [(22,26)] false) [(16,22),(26,27)] false) [(15,16),(27,28)] false) [(19,20),(21,23),(22,24),
  (25,26),(15,17),(16,18),(27,29),(28,30),(19,25),(20,26),(21,22),(23,24),(16,17),(18,27),(28,29),
  (19,21),(20,22),(23,25),(24,26),(16,19),(17,21),(20,23),(22,25),(24,28),(26,29),(17,19),(18,21),
  (24,27),(26,28),(18,20),(21,23),(22,24),(25,27),(18,19),(20,21),(22,23),(24,25),(26,27),(21,22),
  (23,24)] true) (.node (.node (.node (.node (.wire 1) (.wire 2) [(1,2)] false) (.node (.wire 5)
  (.wire 8) [(5,8)] false) [(1,5),(2,8)] false) (.node (.node (.wire 6) (.wire 13) [(6,13)]
  false) (.node (.wire 9) (.wire 11) [(9,11)] false) [(6,9),(11,13)] false) [(1,6),(2,9),(5,11),
  (8,13)] false) (.node (.node (.node (.wire 3) (.wire 10) [(3,10)] false) (.node (.wire 7)
  (.wire 12) [(7,12)] false) [(3,7),(10,12)] false) (.node (.node (.wire 4) (.wire 14) [(4,14)]
  false) (.wire 0) [(0,14)] false) [(0,7),(4,10),(12,14)] false) [(0,6),(2,4),(3,5),(7,11),(8,10),
  (9,12),(13,14),(0,3),(1,2),(4,7),(5,9),(6,8),(10,11),(12,13),(0,1),(2,3),(4,6),(7,9),(10,12),
  (11,13),(1,2),(3,5),(8,10),(11,12),(3,4),(5,6),(7,8),(9,10),(2,3),(4,5),(6,7),(8,9),(10,11),(5,
  6),(7,8)] true) [(11,30)] false) [(15,47),(0,31),(14,61),(16,48),(29,45),(1,32),(13,60),(17,49),
  (28,44),(2,33),(4,51),(10,41),(12,59),(18,50),(19,35),(20,36),(25,57),(26,58),(27,43),(3,38),(5,
  52),(6,53),(7,42),(8,39),(9,40),(11,46),(21,37),(22,54),(23,55),(24,56),(30,62),(0,15),(14,29),
  (31,47),(45,61),(1,16),(13,28),(32,48),(44,60),(2,17),(4,19),(10,25),(12,27),(18,34),(33,49),
  (35,51),(41,57),(43,59),(3,22),(5,20),(6,21),(7,50),(8,23),(9,24),(30,46),(36,52),(37,53),(38,
  54),(39,55),(40,56),(42,58),(15,31),(29,45),(16,32),(28,44),(12,19),(17,33),(25,41),(26,34),(27,
  43),(61,62),(3,18),(11,38),(13,20),(14,21),(23,39),(24,40),(30,54),(42,50),(46,58),(4,15),(45,
  57),(5,16),(6,17),(7,26),(8,31),(9,32),(10,33),(19,35),(25,49),(27,51),(28,52),(29,53),(43,55),
  (44,56),(20,36),(21,37),(22,38),(23,47),(24,48),(34,42),(46,54),(58,60),(1,4),(7,18),(8,15),(9,
  16),(10,17),(14,25),(19,31),(29,49),(35,39),(43,51),(44,52),(45,53),(11,22),(12,23),(13,24),(20,
  32),(21,33),(26,34),(27,47),(28,48),(30,38),(36,40),(37,41),(42,50),(54,56),(60,61),(2,8),(3,9),
  (53,59),(11,26),(12,19),(13,20),(14,21),(22,34),(23,31),(24,32),(25,33),(27,35),(28,36),(29,37),
  (30,42),(38,50),(39,47),(40,48),(41,49),(56,57),(2,4),(3,8),(58,59),(11,18),(12,15),(13,16),(14,
  17),(19,23),(20,24),(21,25),(22,26),(27,31),(28,32),(29,33),(30,34),(35,39),(36,40),(37,41),(38,
  42),(43,47),(44,48),(45,49),(46,50),(56,58),(57,59),(6,12),(7,13),(10,15),(11,16),(14,19),(17,
  23),(18,20),(21,27),(22,24),(25,31),(26,28),(29,35),(30,32),(33,39),(34,36),(37,43),(38,40),(41,
  47),(42,44),(45,51),(46,48),(49,55),(50,52),(57,58),(59,60),(5,6),(7,10),(9,12),(11,15),(13,14),
  (16,19),(17,18),(20,23),(21,22),(24,27),(25,26),(28,31),(29,30),(32,35),(33,34),(36,37),(38,39),
  (40,41),(42,43),(44,47),(45,46),(48,50),(49,51),(52,53),(54,55),(3,5),(6,8),(7,9),(10,12),(11,
  13),(14,15),(16,17),(18,19),(20,21),(22,23),(24,25),(26,27),(28,29),(30,31),(32,33),(34,35),(36,
  38),(37,39),(40,42),(41,43),(44,45),(46,47),(48,49),(50,51),(52,54),(53,55),(3,4),(5,6),(7,8),
  (9,10),(11,12),(13,14),(15,16),(17,18),(19,20),(21,22),(23,24),(25,26),(27,28),(29,30),(31,32),
  (33,34),(35,36),(37,38),(39,40),(41,42),(43,44),(45,46),(47,48),(49,50),(51,52),(53,54),(55,
  56)] false)

theorem net63_sorts01 : Sorts01 63 net63 :=
  sorts01_of_check (p := plan63) (by decide +kernel)

/-- Plan for the strands of `net64`. -/
def plan64 : Plan := (.node (.node (.node (.node (.node (.node (.node (.wire 8) (.wire 60) [(8,
  60)] false) (.node (.wire 36) (.wire 40) [(36,40)] false) [(8,36),(40,60)] false) (.node (.node
  (.wire 12) (.wire 56) [(12,56)] false) (.node (.wire 16) (.wire 32) [(16,32)] false) [(12,16),
  (32,56)] false) [(8,12),(56,60)] false) (.node (.node (.node (.wire 0) (.wire 52) [(0,52)]
  false) (.node (.wire 20) (.wire 24) [(20,24)] false) [(0,20),(24,52)] false) (.node (.node
  (.wire 4) (.wire 48) [(4,48)] false) (.node (.wire 28) (.wire 44) [(28,44)] false) [(4,28),(44,
  48)] false) [(0,4),(48,52)] false) [(16,20),(24,32),(28,36),(40,44),(0,8),(4,12),(48,56),(52,
  60),(16,40),(20,44),(24,28),(32,36),(4,8),(12,48),(52,56),(16,24),(20,28),(32,40),(36,44),(4,
  16),(8,24),(20,32),(28,40),(36,52),(44,56),(8,16),(12,24),(36,48),(44,52),(12,20),(24,32),(28,
  36),(40,48),(12,16),(20,24),(28,32),(36,40),(44,48),(24,28),(32,36)] true) (.node (.node (.node
  (.node (.wire 9) (.wire 61) [(9,61)] false) (.node (.wire 37) (.wire 41) [(37,41)] false) [(9,
  37),(41,61)] false) (.node (.node (.wire 13) (.wire 57) [(13,57)] false) (.node (.wire 17)
  (.wire 33) [(17,33)] false) [(13,17),(33,57)] false) [(9,13),(57,61)] false) (.node (.node
  (.node (.wire 1) (.wire 53) [(1,53)] false) (.node (.wire 21) (.wire 25) [(21,25)] false) [(1,
  21),(25,53)] false) (.node (.node (.wire 5) (.wire 49) [(5,49)] false) (.node (.wire 29) (.wire
  45) [(29,45)] false) [(5,29),(45,49)] false) [(1,5),(49,53)] false) [(17,21),(25,33),(29,37),
  (41,45),(1,9),(5,13),(49,57),(53,61),(17,41),(21,45),(25,29),(33,37),(5,9),(13,49),(53,57),(17,
  25),(21,29),(33,41),(37,45),(5,17),(9,25),(21,33),(29,41),(37,53),(45,57),(9,17),(13,25),(37,
  49),(45,53),(13,21),(25,33),(29,37),(41,49),(13,17),(21,25),(29,33),(37,41),(45,49),(25,29),(33,
  37)] true) [] false) (.node (.node (.node (.node (.wire 10) (.wire 62) [(10,62)] false) (.node
  (.wire 38) (.wire 42) [(38,42)] false) [(10,38),(42,62)] false) (.node (.node (.wire 14) (.wire
  58) [(14,58)] false) (.node (.wire 18) (.wire 34) [(18,34)] false) [(14,18),(34,58)] false)
  [(10,14),(58,62)] false) (.node (.node (.node (.wire 2) (.wire 54) [(2,54)] false) (.node
  (.wire 22) (.wire 26) [(22,26)] false) [(2,22),(26,54)] false) (.node (.node (.wire 6) (.wire
  50) [(6,50)] false) (.node (.wire 30) (.wire 46) [(30,46)] false) [(6,30),(46,50)] false) [(2,
  6),(50,54)] false) [(18,22),(26,34),(30,38),(42,46),(2,10),(6,14),(50,58),(54,62),(18,42),(22,
  46),(26,30),(34,38),(6,10),(14,50),(54,58),(18,26),(22,30),(34,42),(38,46),(6,18),(10,26),(22,
  34),(30,42),(38,54),(46,58),(10,18),(14,26),(38,50),(46,54),(14,22),(26,34),(30,38),(42,50),(14,
  18),(22,26),(30,34),(38,42),(46,50),(26,30),(34,38)] true) [] false) (.node (.node (.node
  (.node (.wire 11) (.wire 63) [(11,63)] false) (.node (.wire 39) (.wire 43) [(39,43)] false)
  [(11,39),(43,63)] false) (.node (.node (.wire 15) (.wire 59) [(15,59)] false) (.node (.wire 19)
  (.wire 35) [(19,35)] false) [(15,19),(35,59)] false) [(11,15),(59,63)] false) (.node (.node
  (.node (.wire 3) (.wire 55) [(3,55)] false) (.node (.wire 23) (.wire 27) [(23,27)] false) [(3,
  23),(27,55)] false) (.node (.node (.wire 7) (.wire 51) [(7,51)] false) (.node (.wire 31) (.wire
  47) [(31,47)] false) [(7,31),(47,51)] false) [(3,7),(51,55)] false) [(19,23),(27,35),(31,39),
  (43,47),(3,11),(7,15),(51,59),(55,63),(19,43),(23,47),(27,31),(35,39),(7,11),(15,51),(55,59),
  (19,27),(23,31),(35,43),(39,47),(7,19),(11,27),(23,35),(31,43),(39,55),(47,59),(11,19),(15,27),
  (39,51),(47,55),(15,23),(27,35),(31,39),(43,51),(15,19),(23,27),(31,35),(39,43),(47,51),(27,31),
  (35,39)] true) [] false)

/-- The first two strands of `net64`. -/
def strandS64 : List (Nat × Nat) := [
  (0, 13), (1, 12), (2, 15), (3, 14), (4, 8), (5, 6), (7, 11), (9, 10), (0, 5), (1, 7), (2, 9),
  (3, 4), (6, 13), (8, 14), (10, 15), (11, 12), (0, 1), (2, 3), (4, 5), (6, 8), (7, 9),
  (10, 11), (12, 13), (14, 15), (0, 2), (1, 3), (4, 10), (5, 11), (6, 7), (8, 9), (12, 14),
  (13, 15), (1, 2), (3, 12), (4, 6), (5, 7), (8, 10), (9, 11), (13, 14), (1, 4), (2, 6),
  (5, 8), (7, 10), (9, 13), (11, 14), (2, 4), (3, 6), (9, 12), (11, 13), (3, 5), (6, 8),
  (7, 9), (10, 12), (3, 4), (5, 6), (7, 8), (9, 10), (11, 12), (6, 7), (8, 9)]

/-- Plan for `strandS64`. -/
def planS64 : Plan := (.node (.node (.node (.node (.wire 2) (.wire 15) [(2,15)] false) (.node
  (.wire 9) (.wire 10) [(9,10)] false) [(2,9),(10,15)] false) (.node (.node (.wire 3) (.wire 14)
  [(3,14)] false) (.node (.wire 4) (.wire 8) [(4,8)] false) [(3,4),(8,14)] false) [(2,3),(14,15)]
  false) (.node (.node (.node (.wire 0) (.wire 13) [(0,13)] false) (.node (.wire 5) (.wire 6) [(5,
  6)] false) [(0,5),(6,13)] false) (.node (.node (.wire 1) (.wire 12) [(1,12)] false) (.node
  (.wire 7) (.wire 11) [(7,11)] false) [(1,7),(11,12)] false) [(0,1),(12,13)] false) [(4,5),(6,8),
  (7,9),(10,11),(0,2),(1,3),(12,14),(13,15),(4,10),(5,11),(6,7),(8,9),(1,2),(3,12),(13,14),(4,6),
  (5,7),(8,10),(9,11),(1,4),(2,6),(5,8),(7,10),(9,13),(11,14),(2,4),(3,6),(9,12),(11,13),(3,5),(6,
  8),(7,9),(10,12),(3,4),(5,6),(7,8),(9,10),(11,12),(6,7),(8,9)] false)

theorem strandS64_sorts01 : Sorts01 16 strandS64 :=
  sorts01_of_check (p := planS64) (by decide +kernel)

/-- The last two strands of `net64`. -/
def strandT64 : List (Nat × Nat) := [
  (0, 13), (1, 12), (2, 15), (3, 14), (4, 8), (5, 6), (7, 11), (9, 10), (0, 5), (1, 7), (2, 9),
  (3, 4), (6, 13), (8, 14), (10, 15), (11, 12), (0, 1), (2, 3), (4, 5), (6, 8), (7, 9),
  (10, 11), (12, 13), (14, 15), (0, 2), (1, 3), (4, 10), (5, 11), (6, 7), (8, 9), (12, 14),
  (13, 15), (1, 2), (3, 12), (4, 6), (5, 7), (8, 10), (9, 11), (13, 14), (1, 4), (2, 6),
  (5, 8), (7, 10), (9, 13), (11, 14), (2, 4), (3, 6), (9, 12), (11, 13), (3, 5), (6, 8),
  (7, 9), (10, 12), (3, 4), (5, 6), (7, 8), (9, 10), (11, 12), (6, 7), (8, 9)]

/-- Plan for `strandT64`. -/
def planT64 : Plan := (.node (.node (.node (.node (.wire 2) (.wire 15) [(2,15)] false) (.node
  (.wire 9) (.wire 10) [(9,10)] false) [(2,9),(10,15)] false) (.node (.node (.wire 3) (.wire 14)
  [(3,14)] false) (.node (.wire 4) (.wire 8) [(4,8)] false) [(3,4),(8,14)] false) [(2,3),(14,15)]
  false) (.node (.node (.node (.wire 0) (.wire 13) [(0,13)] false) (.node (.wire 5) (.wire 6) [(5,
  6)] false) [(0,5),(6,13)] false) (.node (.node (.wire 1) (.wire 12) [(1,12)] false) (.node
  (.wire 7) (.wire 11) [(7,11)] false) [(1,7),(11,12)] false) [(0,1),(12,13)] false) [(4,5),(6,8),
  (7,9),(10,11),(0,2),(1,3),(12,14),(13,15),(4,10),(5,11),(6,7),(8,9),(1,2),(3,12),(13,14),(4,6),
  (5,7),(8,10),(9,11),(1,4),(2,6),(5,8),(7,10),(9,13),(11,14),(2,4),(3,6),(9,12),(11,13),(3,5),(6,
  8),(7,9),(10,12),(3,4),(5,6),(7,8),(9,10),(11,12),(6,7),(8,9)] false)

theorem strandT64_sorts01 : Sorts01 16 strandT64 :=
  sorts01_of_check (p := planT64) (by decide +kernel)

/-- The last part of `net64`. -/
def rest64 : List (Nat × Nat) := [
  (1, 4), (59, 62), (2, 8), (55, 61), (2, 4), (59, 61), (4, 16), (5, 20), (10, 40), (23, 53),
  (43, 58), (47, 59), (3, 17), (6, 36), (7, 21), (8, 32), (9, 24), (11, 41), (13, 28),
  (14, 44), (15, 45), (18, 48), (19, 49), (22, 52), (27, 57), (31, 55), (35, 50), (39, 54),
  (42, 56), (46, 60), (6, 20), (8, 16), (10, 24), (11, 25), (14, 28), (15, 29), (17, 33),
  (18, 32), (21, 37), (22, 36), (26, 42), (27, 41), (30, 46), (31, 45), (34, 48), (35, 49),
  (38, 52), (39, 53), (43, 57), (47, 55), (3, 18), (5, 8), (6, 12), (7, 22), (15, 21),
  (17, 32), (19, 33), (23, 37), (26, 40), (30, 44), (31, 46), (41, 56), (42, 48), (45, 60),
  (51, 57), (55, 58), (3, 16), (7, 20), (11, 26), (18, 24), (19, 25), (22, 28), (23, 29),
  (27, 33), (30, 36), (34, 40), (35, 41), (37, 52), (38, 44), (39, 45), (43, 56), (47, 60),
  (3, 9), (7, 13), (10, 16), (11, 17), (14, 20), (15, 30), (19, 34), (21, 36), (23, 38),
  (25, 40), (26, 32), (27, 42), (29, 44), (31, 37), (33, 48), (43, 49), (46, 52), (47, 53),
  (50, 56), (54, 60), (3, 8), (7, 10), (9, 12), (11, 18), (13, 14), (15, 24), (17, 22),
  (19, 28), (21, 26), (23, 25), (27, 34), (29, 36), (30, 32), (31, 33), (35, 44), (37, 42),
  (38, 40), (39, 48), (41, 46), (45, 52), (49, 50), (51, 54), (53, 56), (55, 60), (3, 6),
  (7, 12), (11, 16), (15, 17), (18, 20), (19, 24), (21, 22), (23, 30), (25, 32), (26, 28),
  (27, 29), (31, 38), (33, 40), (34, 36), (35, 37), (39, 44), (41, 42), (43, 45), (46, 48),
  (47, 52), (51, 56), (57, 60), (3, 5), (6, 8), (7, 9), (10, 12), (11, 13), (14, 16), (15, 18),
  (17, 20), (19, 21), (22, 24), (23, 26), (25, 28), (27, 30), (29, 32), (31, 34), (33, 36),
  (35, 38), (37, 40), (39, 41), (42, 44), (43, 46), (45, 48), (47, 49), (50, 52), (51, 53),
  (54, 56), (55, 57), (58, 60), (3, 4), (7, 8), (11, 12), (13, 14), (15, 16), (17, 18),
  (19, 20), (21, 22), (23, 24), (25, 26), (27, 28), (29, 30), (31, 32), (33, 34), (35, 36),
  (37, 38), (39, 40), (41, 42), (43, 44), (45, 46), (47, 48), (49, 50), (51, 52), (55, 56),
  (59, 60)]

theorem net64_sorts01 : Sorts01 64 net64 :=
  sorts01_of_strands (k := 16) (p := plan64) (rest := rest64) strandS64_sorts01 strandT64_sorts01
    (by decide +kernel)

end CppSort
