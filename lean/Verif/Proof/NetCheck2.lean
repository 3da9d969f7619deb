import Verif.Base.Strands
import Verif.Model.NetData2
/-
The networks for 21 to 32 elements sort every 0-1 input (checked by following all inputs).
-/
set_option autoImplicit false
set_option maxRecDepth 100000

namespace CppSort

/-- Plan for `net21`. -/
def plan21 : Plan := (.node (.node (.node (.node (.wire 0) (.wire 1) [(0,1)] false) (.node (.wire
  2) (.wire 3) [(2,3)] false) [(0,2),(1,3)] false) (.node (.node (.wire 8) (.wire 9) [(8,9)]
  false) (.node (.wire 10) (.wire 11) [(10,11)] false) [(8,10),(9,11)] false) [(0,8),(1,9),(2,10),
  (3,11)] false) (.node (.node (.node (.node (.node (.wire 4) (.wire 5) [(4,5)] false) (.node
  (.wire 6) (.wire 7) [(6,7)] false) [(4,6),(5,7)] false) (.node (.node (.wire 12) (.wire 13)
  [(12,13)] false) (.node (.wire 14) (.wire 15) [(14,15)] false) [(12,14),(13,15)] false) [(4,12),
  (5,13),(6,14),(7,15)] false) (.wire 20) [(6,20)] false) (.node (.node (.wire 16) (.wire 17)
  [(16,17)] false) (.node (.wire 18) (.wire 19) [(18,19)] false) [(16,18),(17,19)] false) [(15,
  19)] true) [(0,4),(1,5),(3,7),(8,12),(9,13),(10,14),(2,6),(3,18),(7,20),(2,16),(3,6),(5,18),(7,
  17),(11,20),(0,2),(9,16),(3,8),(6,12),(7,10),(11,15),(13,17),(14,18),(19,20),(4,9),(1,7),(2,3),
  (10,11),(13,16),(15,18),(17,19),(1,4),(5,10),(6,13),(7,8),(11,14),(12,16),(15,17),(18,19),(1,2),
  (3,4),(5,6),(10,12),(11,13),(14,16),(17,18),(2,3),(4,5),(6,9),(10,11),(12,13),(14,15),(16,17),
  (6,7),(8,9),(15,16),(4,6),(7,8),(9,12),(13,15),(3,4),(5,7),(8,10),(9,11),(12,14),(5,6),(7,8),(9,
  10),(11,12),(13,14)] false)

theorem net21_sorts01 : Sorts01 21 net21 :=
  sorts01_of_check (p := plan21) (by decide +kernel)

/-- Plan for `net22`. -/
def plan22 : Plan := (.node (.node (.node (.node (.node (.wire 0) (.wire 1) [(0,1)] false) (.node
  (.wire 2) (.wire 3) [(2,3)] false) [(0,2),(1,3)] false) (.node (.node (.wire 4) (.wire 5) [(4,
  5)] false) (.node (.wire 6) (.wire 7) [(6,7)] false) [(4,6),(5,7)] false) [(0,4),(1,5),(2,6),(3,
  7)] false) (.node (.node (.node (.wire 14) (.wire 15) [(14,15)] false) (.node (.wire 16) (.wire
  17) [(16,17)] false) [(14,16),(15,17)] false) (.node (.node (.wire 18) (.wire 19) [(18,19)]
  false) (.node (.wire 20) (.wire 21) [(20,21)] false) [(18,20),(19,21)] false) [(14,18),(15,19),
  (16,20),(17,21)] false) [(0,14),(1,15),(2,18),(3,19),(4,16),(5,17),(6,20),(7,21)] true) (.node
  (.node (.node (.wire 8) (.wire 9) [(8,9)] false) (.node (.wire 12) (.wire 13) [(12,13)] false)
  [(8,12),(9,13),(9,12)] false) (.node (.wire 10) (.wire 11) [(10,11)] false) [(8,10),(11,13),(9,
  11),(10,12)] false) [(2,8),(3,11),(6,9),(10,18),(12,15),(13,19),(0,2),(1,10),(3,16),(5,18),(6,
  14),(7,15),(8,12),(9,13),(11,20),(19,21),(2,6),(3,10),(4,8),(5,12),(9,16),(11,18),(13,17),(15,
  19),(1,4),(7,13),(8,14),(9,12),(17,20),(1,2),(3,8),(4,6),(7,11),(10,14),(13,18),(15,17),(19,20),
  (2,4),(5,10),(7,9),(11,16),(12,14),(17,19),(5,6),(7,8),(9,11),(10,12),(13,14),(15,16),(3,5),(6,
  7),(8,10),(9,12),(11,13),(14,15),(16,18),(3,4),(5,6),(7,8),(9,10),(11,12),(13,14),(15,16),(17,
  18)] false)

theorem net22_sorts01 : Sorts01 22 net22 :=
  sorts01_of_check (p := plan22) (by decide +kernel)

/-- Plan for `net23`. -/
def plan23 : Plan := (.node (.node (.node (.node (.node (.wire 0) (.wire 1) [(0,1)] false) (.node
  (.wire 2) (.wire 3) [(2,3)] false) [(0,2),(1,3)] false) (.node (.node (.wire 4) (.wire 5) [(4,
  5)] false) (.node (.wire 6) (.wire 7) [(6,7)] false) [(4,6),(5,7)] false) [(0,4),(1,5),(2,6),(3,
  7)] false) (.node (.node (.node (.wire 8) (.wire 9) [(8,9)] false) (.node (.wire 10) (.wire 11)
  [(10,11)] false) [(8,10),(9,11)] false) (.node (.node (.wire 12) (.wire 13) [(12,13)] false)
  (.node (.wire 14) (.wire 15) [(14,15)] false) [(12,14),(13,15)] false) [(8,12),(9,13),(10,14),
  (11,15)] false) [(0,8),(1,9),(2,10),(3,11),(4,12),(5,13),(6,14),(7,15),(1,2)] true) (.node
  (.node (.node (.wire 16) (.wire 17) [(16,17)] false) (.node (.wire 18) (.wire 19) [(18,19)]
  false) [(16,18),(17,19)] false) (.node (.node (.wire 20) (.wire 21) [(20,21)] false) (.wire 22)
  [(21,22)] false) [(17,21),(18,20),(19,22)] false) [(5,18),(7,19),(9,16),(10,21),(12,20),(15,22),
  (5,9),(6,7),(10,18),(11,21),(12,17),(13,20),(14,15),(3,17),(6,16),(7,14),(8,12),(15,19),(20,21),
  (3,4),(5,8),(6,10),(9,12),(13,16),(14,15),(17,18),(19,21),(0,5),(1,8),(2,12),(3,9),(4,10),(7,
  13),(11,17),(14,16),(18,20),(2,6),(3,5),(4,8),(7,11),(10,12),(13,18),(14,17),(15,20),(1,3),(2,
  5),(6,9),(7,10),(11,13),(12,14),(15,18),(16,17),(19,20),(2,3),(4,6),(8,9),(11,12),(13,14),(15,
  16),(17,19),(3,4),(5,6),(7,8),(9,10),(12,13),(14,15),(17,18),(4,5),(6,7),(8,9),(10,11),(16,17)]
  false)

theorem net23_sorts01 : Sorts01 23 net23 :=
  sorts01_of_check (p := plan23) (by decide +kernel)

/-- Plan for `net24`. -/
def plan24 : Plan := (.node (.node (.node (.node (.node (.wire 2) (.wire 16) [(2,16)] false)
  (.node (.wire 7) (.wire 21) [(7,21)] false) [(2,7),(16,21)] false) (.node (.node (.wire 4)
  (.wire 6) [(4,6)] false) (.node (.wire 17) (.wire 19) [(17,19)] false) [(4,17),(6,19)] false)
  [(2,4),(19,21)] true) (.node (.node (.node (.wire 5) (.wire 10) [(5,10)] false) (.node (.wire
  13) (.wire 18) [(13,18)] false) [(5,13),(10,18)] false) (.node (.node (.wire 8) (.wire 14) [(8,
  14)] false) (.node (.wire 9) (.wire 15) [(9,15)] false) [(8,9),(14,15)] false) [(5,8),(15,18)]
  true) [(6,9),(7,10),(13,16),(14,17),(2,5),(4,8),(15,19),(18,21),(7,14),(9,16),(4,7),(16,19)]
  false) (.node (.node (.node (.wire 0) (.wire 20) [(0,20)] false) (.node (.wire 3) (.wire 23)
  [(3,23)] false) [(0,3),(20,23)] false) (.node (.node (.wire 1) (.wire 12) [(1,12)] false)
  (.node (.wire 11) (.wire 22) [(11,22)] false) [(1,11),(12,22)] false) [(0,1),(3,12),(11,20),(22,
  23)] true) [(6,11),(12,17),(1,8),(3,14),(9,20),(15,22),(0,7),(16,23),(10,12),(11,13),(1,5),(3,
  4),(8,15),(9,14),(18,22),(19,20),(0,2),(21,23),(6,11),(10,13),(12,17),(4,7),(5,9),(14,18),(16,
  19),(2,3),(20,21),(1,6),(8,10),(13,15),(17,22),(4,5),(7,9),(14,16),(18,19),(6,8),(10,11),(12,
  13),(15,17),(1,2),(21,22),(3,6),(4,10),(7,8),(9,11),(12,14),(13,19),(15,16),(17,20),(2,3),(5,
  10),(6,7),(8,9),(13,18),(14,15),(16,17),(20,21),(3,4),(5,7),(10,12),(11,13),(16,18),(19,20),(4,
  6),(8,10),(9,12),(11,14),(13,15),(17,19),(5,6),(7,8),(9,10),(11,12),(13,14),(15,16),(17,18)]
  false)

theorem net24_sorts01 : Sorts01 24 net24 :=
  sorts01_of_check (p := plan24) (by decide +kernel)

/-- Plan for `net25`. -/
def plan25 : Plan := (.node (.node (.node (.node (.node (.wire 0) (.wire 1) [(0,1)] false) (.node
  (.wire 2) (.wire 3) [(2,3)] false) [(0,2),(1,3)] false) (.node (.node (.wire 4) (.wire 5) [(4,
  5)] false) (.node (.wire 6) (.wire 7) [(6,7)] false) [(4,6),(5,7)] false) [(0,4),(1,5),(2,6),(3,
  7)] true) (.node (.node (.node (.wire 8) (.wire 9) [(8,9)] false) (.node (.wire 10) (.wire 11)
  [(10,11)] false) [(8,10),(9,11)] false) (.node (.node (.wire 12) (.wire 13) [(12,13)] false)
  (.node (.wire 14) (.wire 15) [(14,15)] false) [(12,14),(13,15)] false) [(8,12),(9,13),(10,14),
  (11,15)] true) [(0,8),(1,9),(2,10),(3,11),(4,12),(5,13),(6,14),(7,15),(11,14),(7,11)] false)
  (.node (.node (.node (.node (.wire 22) (.wire 23) [(22,23)] false) (.wire 24) [(23,24)] false)
  (.node (.wire 20) (.wire 21) [(20,21)] false) [(21,22),(20,23),(22,24)] false) (.node (.node
  (.wire 16) (.wire 17) [(16,17)] false) (.node (.wire 18) (.wire 19) [(18,19)] false) [(16,18),
  (17,19)] false) [(18,21),(16,20),(17,22),(19,24),(21,23)] true) [(1,18),(3,21),(5,23),(6,19),
  (15,24),(7,20),(11,22),(1,16),(3,17),(6,9),(13,19),(14,23),(7,18),(11,21),(0,1),(2,16),(3,8),
  (10,13),(15,23),(19,22),(4,7),(9,18),(11,12),(1,2),(5,10),(15,20),(13,21),(22,23),(3,4),(7,8),
  (11,16),(5,6),(10,17),(14,15),(19,20),(13,18),(1,3),(2,4),(9,10),(12,17),(19,21),(20,22),(5,11),
  (6,16),(15,18),(2,3),(7,9),(8,10),(12,13),(14,19),(15,17),(5,7),(6,9),(8,11),(10,16),(12,14),
  (17,18),(3,5),(4,6),(7,8),(9,11),(10,12),(13,14),(15,16),(17,19),(18,21),(4,7),(6,8),(9,10),(11,
  12),(13,15),(14,16),(18,19),(20,21),(4,5),(6,7),(8,9),(10,11),(12,13),(14,15),(16,17)] false)

theorem net25_sorts01 : Sorts01 25 net25 :=
  sorts01_of_check (p := plan25) (by decide +kernel)

/-- Plan for `net26`. -/
def plan26 : Plan := (.node (.node (.node (.node (.node (.wire 5) (.wire 6) [(5,6)] false) (.node
  (.wire 7) (.wire 8) [(7,8)] false) [(5,7),(6,8)] false) (.node (.node (.wire 9) (.wire 10) [(9,
  10)] false) (.node (.wire 11) (.wire 12) [(11,12)] false) [(9,11),(10,12)] false) [(5,9),(6,10),
  (7,11),(8,12)] true) (.node (.node (.node (.wire 13) (.wire 14) [(13,14)] false) (.node (.wire
  15) (.wire 16) [(15,16)] false) [(13,15),(14,16)] false) (.node (.node (.wire 17) (.wire 18)
  [(17,18)] false) (.node (.wire 19) (.wire 20) [(19,20)] false) [(17,19),(18,20)] false) [(13,
  17),(14,18),(15,19),(16,20)] true) [(5,13),(6,14),(7,15),(8,16),(9,17),(10,18),(11,19),(12,20)]
  false) (.node (.node (.node (.node (.wire 2) (.wire 3) [(2,3)] false) (.node (.wire 4) (.wire
  21) [(4,21)] false) [(3,21)] false) (.node (.wire 22) (.wire 23) [(22,23)] false) [(4,22),(3,
  23),(2,22)] false) (.node (.node (.wire 0) (.wire 1) [(0,1)] false) (.node (.wire 24) (.wire
  25) [(24,25)] false) [(0,24),(1,25)] false) [(0,4),(21,25),(1,3),(22,24),(0,2),(4,21),(23,25),
  (2,4),(21,23)] true) [(0,5),(1,7),(3,10),(15,22),(18,24),(20,25),(2,9),(4,14),(11,21),(16,23),
  (3,7),(5,13),(6,15),(10,19),(12,20),(18,22),(1,5),(2,6),(3,15),(7,17),(8,18),(10,22),(11,13),
  (12,14),(19,23),(20,24),(1,2),(4,7),(5,11),(8,9),(10,12),(13,15),(14,20),(16,17),(18,21),(23,
  24),(3,8),(4,6),(7,16),(9,18),(10,13),(12,15),(17,22),(19,21),(4,5),(6,11),(7,9),(14,19),(16,
  18),(20,21),(2,4),(3,6),(7,10),(8,11),(9,12),(13,16),(14,17),(15,18),(19,22),(21,23),(3,4),(5,
  8),(6,7),(9,10),(11,13),(12,14),(15,16),(17,20),(18,19),(21,22),(5,6),(7,8),(9,11),(10,13),(12,
  15),(14,16),(17,18),(19,20),(4,5),(6,7),(8,9),(10,11),(12,13),(14,15),(16,17),(18,19),(20,21)]
  false)

theorem net26_sorts01 : Sorts01 26 net26 :=
  sorts01_of_check (p := plan26) (by decide +kernel)

/-- Plan for `net27`. -/
def plan27 : Plan := (.node (.node (.node (.node (.node (.wire 0) (.wire 1) [(0,1)] false) (.node
  (.wire 2) (.wire 3) [(2,3)] false) [(0,2),(1,3)] false) (.node (.node (.wire 23) (.wire 24)
  [(23,24)] false) (.node (.wire 25) (.wire 26) [(25,26)] false) [(23,25),(24,26)] false) [(0,23),
  (1,24),(2,25),(3,26)] true) (.node (.node (.node (.wire 15) (.wire 16) [(15,16)] false) (.node
  (.wire 17) (.wire 18) [(17,18)] false) [(15,17),(16,18)] false) (.node (.node (.wire 19) (.wire
  20) [(19,20)] false) (.node (.wire 21) (.wire 22) [(21,22)] false) [(19,21),(20,22)] false)
  [(15,19),(16,20),(17,21),(18,22)] true) [(2,19),(3,20),(17,23),(18,24),(22,26)] false) (.node
  (.node (.node (.node (.wire 4) (.wire 5) [(4,5)] false) (.node (.wire 6) (.wire 7) [(6,7)]
  false) [(4,6),(5,7)] false) (.node (.node (.wire 8) (.wire 9) [(8,9)] false) (.node (.wire 10)
  (.wire 11) [(10,11)] false) [(8,10),(9,11)] false) [(4,8),(5,9),(6,10),(7,11)] true) (.node
  (.node (.wire 12) (.wire 14) [(12,14)] false) (.wire 13) [(12,13),(13,14)] false) [(5,13),(11,
  14)] false) [(0,4),(1,6),(9,21),(12,16),(5,17),(7,22),(10,24),(13,20),(14,26),(6,16),(9,25),(12,
  15),(7,23),(10,19),(13,18),(20,24),(1,12),(4,15),(11,16),(22,25),(10,17),(14,24),(18,19),(0,1),
  (6,12),(8,11),(9,15),(16,21),(14,20),(1,4),(2,8),(3,11),(12,15),(16,22),(21,25),(2,5),(3,17),(8,
  13),(11,23),(21,22),(24,25),(1,2),(3,10),(5,6),(7,13),(11,15),(14,21),(18,23),(20,22),(4,5),(6,
  9),(7,8),(13,17),(14,16),(19,23),(22,24),(2,4),(3,6),(5,7),(8,12),(9,10),(11,13),(14,18),(15,
  17),(16,19),(21,23),(3,5),(6,8),(7,9),(10,12),(11,14),(13,16),(15,18),(17,19),(20,21),(22,23),
  (5,6),(8,11),(9,10),(12,14),(13,15),(17,18),(19,21),(4,5),(6,7),(8,9),(10,11),(12,13),(14,15),
  (16,17),(18,20),(21,22),(3,4),(5,6),(7,8),(9,10),(11,12),(13,14),(15,16),(17,18),(19,20)] false)

theorem net27_sorts01 : Sorts01 27 net27 :=
  sorts01_of_check (p := plan27) (by decide +kernel)

/-- Plan for `net28`. -/
def plan28 : Plan := (.node (.node (.node (.node (.node (.wire 0) (.wire 1) [(0,1)] false) (.node
  (.wire 2) (.wire 3) [(2,3)] false) [(0,2),(1,3)] false) (.node (.node (.wire 4) (.wire 5) [(4,
  5)] false) (.node (.wire 6) (.wire 7) [(6,7)] false) [(4,6),(5,7)] false) [(0,4),(1,5),(2,6),(3,
  7)] true) (.node (.node (.node (.wire 20) (.wire 21) [(20,21)] false) (.node (.wire 22) (.wire
  23) [(22,23)] false) [(20,22),(21,23)] false) (.node (.node (.wire 24) (.wire 25) [(24,25)]
  false) (.node (.wire 26) (.wire 27) [(26,27)] false) [(24,26),(25,27)] false) [(20,24),(21,25),
  (22,26),(23,27)] true) [(0,20),(1,21),(2,22),(3,23),(4,24),(5,25),(6,26),(7,27),(1,2),(4,20),(5,
  6),(7,23),(21,22),(25,26),(3,5),(22,24)] true) (.node (.node (.node (.node (.wire 8) (.wire 9)
  [(8,9)] false) (.node (.wire 10) (.wire 11) [(10,11)] false) [(8,10),(9,11)] false) (.node
  (.node (.wire 12) (.wire 13) [(12,13)] false) (.node (.wire 14) (.wire 15) [(14,15)] false)
  [(12,14),(13,15)] false) [(8,12),(9,13)] true) (.node (.node (.wire 16) (.wire 17) [(16,17)]
  false) (.node (.wire 18) (.wire 19) [(18,19)] false) [(16,18),(17,19)] false) [(14,18),(15,19),
  (9,17),(12,16),(10,18),(11,15),(8,12),(9,16),(13,17),(10,14),(11,18),(15,19)] true) [(0,8),(1,
  9),(2,12),(4,10),(6,16),(7,13),(11,21),(14,20),(15,25),(17,23),(18,26),(19,27),(2,4),(3,7),(5,
  17),(8,14),(9,11),(10,22),(13,19),(16,18),(20,24),(23,25),(1,8),(3,9),(5,11),(6,10),(7,15),(12,
  20),(16,22),(17,21),(18,24),(19,26),(1,2),(4,6),(5,9),(10,16),(11,17),(12,14),(13,15),(18,22),
  (21,23),(25,26),(4,8),(6,12),(7,11),(10,14),(13,17),(15,21),(16,20),(19,23),(2,4),(6,8),(7,16),
  (9,14),(10,12),(11,20),(13,18),(15,17),(19,21),(23,25),(3,10),(5,12),(7,9),(11,13),(14,16),(15,
  22),(17,24),(18,20),(3,6),(5,8),(7,10),(9,12),(11,14),(13,16),(15,18),(17,20),(19,22),(21,24),
  (3,4),(5,6),(7,8),(9,10),(11,12),(13,14),(15,16),(17,18),(19,20),(21,22),(23,24)] false)

theorem net28_sorts01 : Sorts01 28 net28 :=
  sorts01_of_check (p := plan28) (by decide +kernel)

/-- Plan for `net29`. -/
def plan29 : Plan := (.node (.node (.node (.node (.node (.wire 0) (.wire 1) [(0,1)] false) (.node
  (.wire 2) (.wire 3) [(2,3)] false) [(0,2),(1,3)] false) (.node (.node (.wire 4) (.wire 5) [(4,
  5)] false) (.node (.wire 6) (.wire 7) [(6,7)] false) [(4,6),(5,7)] false) [(0,4),(1,5),(2,6),(3,
  7)] true) (.node (.node (.node (.wire 8) (.wire 9) [(8,9)] false) (.node (.wire 10) (.wire 11)
  [(10,11)] false) [(8,10),(9,11)] false) (.node (.node (.wire 12) (.wire 13) [(12,13)] false)
  (.node (.wire 14) (.wire 15) [(14,15)] false) [(12,14),(13,15)] false) [(8,12),(9,13),(10,14),
  (11,15)] true) [(0,8),(1,9),(2,10),(3,11),(4,12),(5,13),(6,14),(7,15),(1,8)] false) (.node
  (.node (.node (.node (.wire 21) (.wire 27) [(21,27)] false) (.wire 20) [(20,27)] false) (.node
  (.wire 16) (.wire 28) [(16,28)] false) [(16,20),(27,28)] false) (.node (.node (.node (.wire 17)
  (.wire 26) [(17,26)] false) (.node (.wire 22) (.wire 24) [(22,24)] false) [(17,22),(24,26)]
  false) (.node (.node (.wire 18) (.wire 25) [(18,25)] false) (.node (.wire 19) (.wire 23) [(19,
  23)] false) [(18,19),(23,25)] false) [(17,18),(19,22),(23,24),(25,26)] true) [(16,18),(20,22),
  (21,25),(24,27),(26,28),(16,17)] true) [(2,24),(4,19),(5,20),(6,21),(7,27),(9,18),(10,23),(11,
  26),(13,22),(14,25),(15,28),(0,6),(2,4),(3,24),(5,10),(12,19),(13,18),(14,21),(15,25),(20,23),
  (26,27),(0,16),(1,6),(3,12),(4,8),(5,17),(7,24),(14,20),(15,26),(18,21),(19,23),(25,27),(1,5),
  (2,16),(3,10),(6,9),(7,18),(8,17),(11,19),(13,14),(15,22),(21,23),(25,26),(1,2),(3,5),(4,8),(6,
  16),(7,11),(9,17),(10,12),(14,20),(15,18),(19,24),(22,27),(4,6),(9,16),(10,13),(11,19),(12,14),
  (20,21),(22,26),(23,24),(2,4),(3,6),(7,16),(8,9),(11,17),(15,19),(18,23),(24,25),(3,4),(5,9),(7,
  10),(11,13),(12,16),(14,17),(15,20),(19,21),(22,24),(5,8),(6,7),(9,12),(10,11),(13,14),(15,16),
  (17,20),(18,19),(21,23),(24,25),(5,6),(7,8),(9,10),(11,12),(13,15),(14,16),(17,18),(19,20),(21,
  22),(4,5),(6,7),(8,9),(10,11),(12,13),(14,15),(16,17),(18,19),(20,21),(22,23)] false)

theorem net29_sorts01 : Sorts01 29 net29 :=
  sorts01_of_check (p := plan29) (by decide +kernel)

/-- Plan for `net30`. -/
def plan30 : Plan := (.node (.node (.node (.node (.node (.wire 12) (.wire 13) [(12,13)] false)
  (.node (.wire 14) (.wire 15) [(14,15)] false) [(13,15)] false) (.node (.node (.wire 18) (.wire
  19) [(18,19)] false) (.node (.wire 20) (.wire 21) [(20,21)] false) [(18,20),(19,21)] false)
  [(12,20),(13,19),(15,21)] true) (.node (.node (.node (.wire 22) (.wire 23) [(22,23)] false)
  (.node (.wire 24) (.wire 25) [(24,25)] false) [(22,24),(23,25)] false) (.node (.node (.wire 26)
  (.wire 27) [(26,27)] false) (.node (.wire 28) (.wire 29) [(28,29)] false) [(26,28),(27,29)]
  false) [(22,26),(23,27),(24,28),(25,29)] true) [(12,26),(13,23),(15,27),(18,24),(19,25),(20,28),
  (21,29)] false) (.node (.node (.node (.node (.wire 8) (.wire 9) [(8,9)] false) (.node (.wire
  10) (.wire 11) [(10,11)] false) [(8,10),(9,11)] false) (.node (.wire 16) (.wire 17) [(16,17)]
  false) [(9,17)] false) (.node (.node (.node (.wire 0) (.wire 1) [(0,1)] false) (.node (.wire 2)
  (.wire 3) [(2,3)] false) [(0,2),(1,3)] false) (.node (.node (.wire 4) (.wire 5) [(4,5)] false)
  (.node (.wire 6) (.wire 7) [(6,7)] false) [(4,6),(5,7)] false) [(0,4),(1,5),(2,6),(3,7)] true)
  [(1,9),(3,17),(5,11)] true) [(14,16),(1,13),(3,15),(5,19),(7,21),(9,23),(11,25),(17,27),(8,14),
  (10,16),(3,13),(5,9),(7,23),(11,15),(17,19),(21,27),(25,29),(0,8),(2,14),(4,10),(6,16),(3,5),(9,
  13),(11,17),(21,25),(27,29),(2,12),(4,18),(6,20),(8,22),(10,24),(14,26),(16,28),(5,9),(7,13),
  (19,21),(25,27),(0,4),(2,8),(6,22),(10,12),(14,18),(16,26),(20,24),(15,28),(7,11),(13,17),(0,2),
  (1,14),(4,8),(12,18),(16,20),(24,26),(15,23),(7,9),(11,13),(2,4),(6,14),(8,10),(16,22),(20,24),
  (15,19),(21,23),(11,26),(6,8),(10,14),(12,16),(18,22),(15,17),(19,21),(23,25),(9,24),(4,6),(8,
  10),(12,14),(16,18),(20,22),(13,15),(17,19),(21,28),(1,8),(3,18),(5,20),(7,22),(10,12),(14,16),
  (17,24),(19,26),(27,28),(1,2),(3,10),(5,12),(7,14),(9,16),(11,18),(13,20),(15,22),(21,24),(23,
  26),(25,27),(2,4),(3,6),(5,8),(7,10),(9,12),(11,14),(13,16),(15,18),(17,20),(19,22),(23,24),(25,
  26),(3,4),(5,6),(7,8),(9,10),(11,12),(13,14),(15,16),(17,18),(19,20),(21,22)] false)

theorem net30_sorts01 : Sorts01 30 net30 :=
  sorts01_of_check (p := plan30) (by decide +kernel)

/-- Plan for `net31`. -/
def plan31 : Plan := (.node (.node (.node (.node (.node (.wire 0) (.wire 1) [(0,1)] false) (.node
  (.wire 2) (.wire 3) [(2,3)] false) [(0,2),(1,3)] false) (.node (.node (.wire 4) (.wire 5) [(4,
  5)] false) (.node (.wire 6) (.wire 7) [(6,7)] false) [(4,6),(5,7)] false) [(0,4),(1,5),(2,6),(3,
  7)] true) (.node (.node (.node (.wire 8) (.wire 9) [(8,9)] false) (.node (.wire 10) (.wire 11)
  [(10,11)] false) [(8,10),(9,11)] false) (.node (.node (.wire 12) (.wire 13) [(12,13)] false)
  (.node (.wire 14) (.wire 15) [(14,15)] false) [(12,14),(13,15)] false) [(8,12),(9,13),(10,14),
  (11,15)] true) [(0,8),(1,9),(2,10),(3,11),(4,12),(5,13),(6,14),(7,15),(1,8),(2,4),(3,12),(5,10),
  (6,9),(7,14),(11,13),(1,2),(3,5),(4,8),(7,11),(10,12),(13,14),(5,10)] true) (.node (.node
  (.node (.node (.wire 24) (.wire 25) [(24,25)] false) (.node (.wire 26) (.wire 27) [(26,27)]
  false) [(24,26),(25,27)] false) (.node (.node (.wire 28) (.wire 29) [(28,29)] false) (.wire 30)
  [(28,30)] false) [(24,28),(25,29),(26,30)] false) (.node (.node (.node (.wire 16) (.wire 17)
  [(16,17)] false) (.node (.wire 18) (.wire 19) [(18,19)] false) [(16,18),(17,19)] false) (.node
  (.node (.wire 20) (.wire 21) [(20,21)] false) (.node (.wire 22) (.wire 23) [(22,23)] false)
  [(20,22),(21,23)] false) [(16,20),(17,21),(18,22),(19,23)] true) [(16,24),(17,25),(18,26),(19,
  27),(20,28),(21,29),(22,30),(17,24),(18,20),(19,28),(21,26),(22,25),(23,30),(27,29),(17,18),(19,
  21),(20,24),(23,27),(26,28),(29,30),(21,26)] true) [(0,16),(6,22),(9,25),(1,17),(2,18),(3,19),
  (4,20),(7,23),(8,24),(11,27),(12,28),(13,29),(14,30),(5,21),(10,26),(3,17),(4,16),(6,18),(7,9),
  (8,20),(11,23),(13,25),(14,28),(15,27),(22,24),(1,4),(3,8),(5,16),(7,17),(9,21),(10,22),(11,19),
  (12,20),(14,24),(15,26),(23,28),(27,30),(2,5),(7,8),(9,18),(11,17),(12,16),(13,22),(14,20),(15,
  19),(23,24),(26,29),(2,4),(6,12),(9,16),(10,11),(13,17),(14,18),(15,22),(19,25),(20,21),(27,29),
  (5,6),(8,12),(9,10),(11,13),(14,16),(15,17),(18,20),(19,23),(21,22),(25,26),(3,5),(6,7),(8,9),
  (10,12),(11,14),(13,16),(15,18),(17,20),(19,21),(22,23),(24,25),(26,28),(3,4),(5,6),(7,8),(9,
  10),(11,12),(13,14),(15,16),(17,18),(19,20),(21,22),(23,24),(25,26),(27,28)] false)

theorem net31_sorts01 : Sorts01 31 net31 :=
  sorts01_of_check (p := plan31) (by decide +kernel)

/-- Plan for `net32`. -/
def plan32 : Plan := (.node (.node (.node (.node (.node (.wire 0) (.wire 1) [(0,1)] false) (.node
  (.wire 2) (.wire 3) [(2,3)] false) [(0,2),(1,3)] false) (.node (.node (.wire 4) (.wire 5) [(4,
  5)] false) (.node (.wire 6) (.wire 7) [(6,7)] false) [(4,6),(5,7)] false) [(0,4),(1,5),(2,6),(3,
  7)] true) (.node (.node (.node (.wire 8) (.wire 9) [(8,9)] false) (.node (.wire 10) (.wire 11)
  [(10,11)] false) [(8,10),(9,11)] false) (.node (.node (.wire 12) (.wire 13) [(12,13)] false)
  (.node (.wire 14) (.wire 15) [(14,15)] false) [(12,14),(13,15)] false) [(8,12),(9,13),(10,14),
  (11,15)] true) [(0,8),(1,9),(2,10),(3,11),(4,12),(5,13),(6,14),(7,15),(1,8),(2,4),(3,12),(5,10),
  (6,9),(7,14),(11,13),(1,2),(3,5),(4,8),(7,11),(10,12),(13,14),(5,10)] true) (.node (.node
  (.node (.node (.wire 16) (.wire 17) [(16,17)] false) (.node (.wire 18) (.wire 19) [(18,19)]
  false) [(16,18),(17,19)] false) (.node (.node (.wire 20) (.wire 21) [(20,21)] false) (.node
  (.wire 22) (.wire 23) [(22,23)] false) [(20,22),(21,23)] false) [(16,20),(17,21),(18,22),(19,
  23)] true) (.node (.node (.node (.wire 24) (.wire 25) [(24,25)] false) (.node (.wire 26) (.wire
  27) [(26,27)] false) [(24,26),(25,27)] false) (.node (.node (.wire 28) (.wire 29) [(28,29)]
  false) (.node (.wire 30) (.wire 31) [(30,31)] false) [(28,30),(29,31)] false) [(24,28),(25,29),
  (26,30),(27,31)] true) [(16,24),(17,25),(18,26),(19,27),(20,28),(21,29),(22,30),(23,31),(17,24),
  (18,20),(19,28),(21,26),(22,25),(23,30),(27,29),(17,18),(19,21),(20,24),(23,27),(26,28),(29,30),
  (21,26)] true) [(0,16),(15,31),(6,22),(9,25),(1,17),(2,18),(3,19),(4,20),(7,23),(8,24),(11,27),
  (12,28),(13,29),(14,30),(5,21),(10,26),(3,17),(4,16),(6,18),(7,9),(8,20),(11,23),(13,25),(14,
  28),(15,27),(22,24),(1,4),(3,8),(5,16),(7,17),(9,21),(10,22),(11,19),(12,20),(14,24),(15,26),
  (23,28),(27,30),(2,5),(7,8),(9,18),(11,17),(12,16),(13,22),(14,20),(15,19),(23,24),(26,29),(2,
  4),(6,12),(9,16),(10,11),(13,17),(14,18),(15,22),(19,25),(20,21),(27,29),(5,6),(8,12),(9,10),
  (11,13),(14,16),(15,17),(18,20),(19,23),(21,22),(25,26),(3,5),(6,7),(8,9),(10,12),(11,14),(13,
  16),(15,18),(17,20),(19,21),(22,23),(24,25),(26,28),(3,4),(5,6),(7,8),(9,10),(11,12),(13,14),
  (15,16),(17,18),(19,20),(21,22),(23,24),(25,26),(27,28)] false)

theorem net32_sorts01 : Sorts01 32 net32 :=
  sorts01_of_check (p := plan32) (by decide +kernel)

end CppSort
