import Verif.Base.Strands
import Verif.Model.NetData1
/-
The networks for 2 to 20 elements sort every 0-1 input (checked by following all inputs).
-/
set_option autoImplicit false
set_option maxRecDepth 100000

namespace CppSort

/-- Plan for `net2`. -/
def plan2 : Plan := (.node (.wire 0) (.wire 1) [(0,1)] false)

theorem net2_sorts01 : Sorts01 2 net2 :=
  sorts01_of_check (p := plan2) (by decide +kernel)

/-- Plan for `net3`. -/
def plan3 : Plan := (.node (.node (.wire 0) (.wire 1) [(0,1)] false) (.wire 2) [(1,2),(0,1)]
  false)

theorem net3_sorts01 : Sorts01 3 net3 :=
  sorts01_of_check (p := plan3) (by decide +kernel)

/-- Plan for `net4`. -/
def plan4 : Plan := (.node (.node (.wire 0) (.wire 2) [(0,2)] false) (.node (.wire 1) (.wire 3)
  [(1,3)] false) [(0,1),(2,3),(1,2)] false)

theorem net4_sorts01 : Sorts01 4 net4 :=
  sorts01_of_check (p := plan4) (by decide +kernel)

/-- Plan for `net5`. -/
def plan5 : Plan := (.node (.node (.node (.wire 0) (.wire 3) [(0,3)] false) (.wire 2) [(0,2)]
  false) (.node (.wire 1) (.wire 4) [(1,4)] false) [(1,3),(2,4),(0,1),(3,4),(1,2),(2,3)] false)

theorem net5_sorts01 : Sorts01 5 net5 :=
  sorts01_of_check (p := plan5) (by decide +kernel)

/-- Plan for `net6`. -/
def plan6 : Plan := (.node (.node (.node (.wire 1) (.wire 3) [(1,3)] false) (.node (.wire 2)
  (.wire 4) [(2,4)] false) [(1,2),(3,4)] false) (.node (.wire 0) (.wire 5) [(0,5)] false) [(0,3),
  (2,5),(0,1),(2,3),(4,5),(1,2),(3,4)] false)

theorem net6_sorts01 : Sorts01 6 net6 :=
  sorts01_of_check (p := plan6) (by decide +kernel)

/-- Plan for `net7`. -/
def plan7 : Plan := (.node (.node (.node (.wire 0) (.wire 6) [(0,6)] false) (.node (.wire 2)
  (.wire 3) [(2,3)] false) [(0,2),(3,6)] false) (.node (.node (.wire 4) (.wire 5) [(4,5)] false)
  (.wire 1) [(1,4)] false) [(0,1),(2,5),(3,4),(1,2),(4,6),(2,3),(4,5),(1,2),(3,4),(5,6)] false)

theorem net7_sorts01 : Sorts01 7 net7 :=
  sorts01_of_check (p := plan7) (by decide +kernel)

/-- Plan for `net8`. -/
def plan8 : Plan := (.node (.node (.node (.wire 0) (.wire 2) [(0,2)] false) (.node (.wire 4)
  (.wire 6) [(4,6)] false) [(0,4),(2,6)] false) (.node (.node (.wire 1) (.wire 3) [(1,3)] false)
  (.node (.wire 5) (.wire 7) [(5,7)] false) [(1,5),(3,7)] false) [(0,1),(2,3),(4,5),(6,7),(2,4),
  (3,5),(1,4),(3,6),(1,2),(3,4),(5,6)] false)

theorem net8_sorts01 : Sorts01 8 net8 :=
  sorts01_of_check (p := plan8) (by decide +kernel)

/-- Plan for `net9`. -/
def plan9 : Plan := (.node (.node (.node (.node (.wire 2) (.wire 5) [(2,5)] false) (.wire 6) [(5,
  6)] false) (.node (.wire 4) (.wire 8) [(4,8)] false) [(2,4),(4,5)] false) (.node (.node (.wire
  0) (.wire 3) [(0,3)] false) (.node (.wire 1) (.wire 7) [(1,7)] false) [(0,7)] false) [(3,8),(0,
  2),(1,3),(7,8),(1,4),(3,6),(5,7),(0,1),(2,4),(3,5),(6,8),(2,3),(4,5),(6,7),(1,2),(3,4),(5,6)]
  false)

theorem net9_sorts01 : Sorts01 9 net9 :=
  sorts01_of_check (p := plan9) (by decide +kernel)

/-- Plan for `net10`. -/
def plan10 : Plan := (.node (.node (.node (.node (.wire 0) (.wire 8) [(0,8)] false) (.node (.wire
  2) (.wire 7) [(2,7)] false) [(0,2)] false) (.node (.wire 3) (.wire 5) [(3,5)] false) [(5,8),(0,
  3)] false) (.node (.node (.wire 1) (.wire 9) [(1,9)] false) (.node (.wire 4) (.wire 6) [(4,6)]
  false) [(1,4)] false) [(7,9),(2,4),(0,1),(5,7),(6,9),(3,6),(8,9),(1,5),(2,3),(4,8),(6,7),(1,2),
  (3,5),(4,6),(7,8),(2,3),(4,5),(6,7),(3,4),(5,6)] false)

theorem net10_sorts01 : Sorts01 10 net10 :=
  sorts01_of_check (p := plan10) (by decide +kernel)

/-- Plan for `net11`. -/
def plan11 : Plan := (.node (.node (.node (.node (.wire 3) (.wire 7) [(3,7)] false) (.node (.wire
  5) (.wire 8) [(5,8)] false) [(3,5),(7,8)] false) (.node (.node (.wire 2) (.wire 4) [(2,4)]
  false) (.wire 10) [(4,10)] false) [(2,5),(4,7),(8,10)] false) (.node (.node (.wire 0) (.wire 9)
  [(0,9)] false) (.node (.wire 1) (.wire 6) [(1,6)] false) [(0,1),(6,9)] false) [(1,3),(0,4),(5,
  9),(6,8),(1,2),(3,7),(4,5),(9,10),(0,1),(2,6),(7,8),(2,4),(3,6),(5,7),(8,9),(1,2),(3,4),(5,6),
  (7,8),(2,3),(4,5),(6,7)] false)

theorem net11_sorts01 : Sorts01 11 net11 :=
  sorts01_of_check (p := plan11) (by decide +kernel)

/-- Plan for `net12`. -/
def plan12 : Plan := (.node (.node (.node (.node (.wire 0) (.wire 8) [(0,8)] false) (.node (.wire
  1) (.wire 7) [(1,7)] false) [(0,1),(7,8)] false) (.node (.node (.wire 2) (.wire 6) [(2,6)]
  false) (.node (.wire 5) (.wire 9) [(5,9)] false) [(2,5),(6,9)] false) [(0,2),(1,6),(1,2)]
  false) (.node (.node (.wire 3) (.wire 11) [(3,11)] false) (.node (.wire 4) (.wire 10) [(4,10)]
  false) [(3,4),(10,11)] false) [(5,10),(9,11),(0,3),(4,6),(5,7),(8,11),(9,10),(1,4),(3,5),(6,8),
  (7,10),(1,3),(2,5),(6,9),(8,10),(2,3),(4,5),(6,7),(8,9),(4,6),(5,7),(3,4),(5,6),(7,8)] false)

theorem net12_sorts01 : Sorts01 12 net12 :=
  sorts01_of_check (p := plan12) (by decide +kernel)

/-- Plan for `net13`. -/
def plan13 : Plan := (.node (.node (.node (.node (.wire 1) (.wire 10) [(1,10)] false) (.node
  (.wire 6) (.wire 8) [(6,8)] false) [(1,6),(8,10)] false) (.node (.node (.wire 2) (.wire 9) [(2,
  9)] false) (.node (.wire 3) (.wire 7) [(3,7)] false) [(2,3),(7,9)] false) [(1,2),(3,6),(7,8),(9,
  10)] false) (.node (.node (.node (.wire 5) (.wire 11) [(5,11)] false) (.wire 4) [(4,11)] false)
  (.node (.wire 0) (.wire 12) [(0,12)] false) [(0,4),(11,12)] false) [(4,6),(5,9),(8,11),(10,12),
  (0,5),(3,8),(4,7),(6,11),(9,10),(0,1),(2,5),(6,9),(7,8),(10,11),(1,3),(2,4),(5,6),(9,10),(1,2),
  (3,4),(5,7),(6,8),(2,3),(4,5),(6,7),(8,9),(3,4),(5,6)] false)

theorem net13_sorts01 : Sorts01 13 net13 :=
  sorts01_of_check (p := plan13) (by decide +kernel)

/-- Plan for `net14`. -/
def plan14 : Plan := (.node (.node (.node (.node (.wire 4) (.wire 5) [(4,5)] false) (.node (.wire
  8) (.wire 9) [(8,9)] false) [(4,8),(5,9),(5,8)] false) (.node (.node (.wire 10) (.wire 11) [(10,
  11)] false) (.node (.wire 12) (.wire 13) [(12,13)] false) [(10,12),(11,13),(11,12)] false) [(9,
  13),(8,12)] false) (.node (.node (.node (.wire 0) (.wire 1) [(0,1)] false) (.node (.wire 2)
  (.wire 3) [(2,3)] false) [(0,2),(1,3),(1,2)] false) (.node (.wire 6) (.wire 7) [(6,7)] false)
  [(3,7)] false) [(0,4),(6,10),(1,5),(3,9),(7,13),(0,6),(4,10),(3,11),(7,9),(2,10),(4,6),(1,3),(5,
  11),(2,8),(6,7),(10,12),(1,4),(3,5),(2,6),(7,11),(8,10),(9,12),(2,4),(3,6),(5,8),(7,10),(9,11),
  (3,4),(5,6),(7,8),(9,10),(6,7)] false)

theorem net14_sorts01 : Sorts01 14 net14 :=
  sorts01_of_check (p := plan14) (by decide +kernel)

/-- Plan for `net15`. -/
def plan15 : Plan := (.node (.node (.node (.node (.wire 1) (.wire 2) [(1,2)] false) (.node (.wire
  5) (.wire 8) [(5,8)] false) [(1,5),(2,8)] false) (.node (.node (.wire 6) (.wire 13) [(6,13)]
  false) (.node (.wire 9) (.wire 11) [(9,11)] false) [(6,9),(11,13)] false) [(1,6),(2,9),(5,11),
  (8,13)] false) (.node (.node (.node (.wire 3) (.wire 10) [(3,10)] false) (.node (.wire 7)
  (.wire 12) [(7,12)] false) [(3,7),(10,12)] false) (.node (.node (.wire 4) (.wire 14) [(4,14)]
  false) (.wire 0) [(0,14)] false) [(0,7),(4,10),(12,14)] false) [(0,6),(2,4),(3,5),(7,11),(8,10),
  (9,12),(13,14),(0,3),(1,2),(4,7),(5,9),(6,8),(10,11),(12,13),(0,1),(2,3),(4,6),(7,9),(10,12),
  (11,13),(1,2),(3,5),(8,10),(11,12),(3,4),(5,6),(7,8),(9,10),(2,3),(4,5),(6,7),(8,9),(10,11),(5,
  6),(7,8)] false)

theorem net15_sorts01 : Sorts01 15 net15 :=
  sorts01_of_check (p := plan15) (by decide +kernel)

/-- Plan for `net16`. -/
def plan16 : Plan := (.node (.node (.node (.node (.wire 2) (.wire 15) [(2,15)] false) (.node
  (.wire 9) (.wire 10) [(9,10)] false) [(2,9),(10,15)] false) (.node (.node (.wire 3) (.wire 14)
  [(3,14)] false) (.node (.wire 4) (.wire 8) [(4,8)] false) [(3,4),(8,14)] false) [(2,3),(14,15)]
  false) (.node (.node (.node (.wire 0) (.wire 13) [(0,13)] false) (.node (.wire 5) (.wire 6) [(5,
  6)] false) [(0,5),(6,13)] false) (.node (.node (.wire 1) (.wire 12) [(1,12)] false) (.node
  (.wire 7) (.wire 11) [(7,11)] false) [(1,7),(11,12)] false) [(0,1),(12,13)] false) [(4,5),(6,8),
  (7,9),(10,11),(0,2),(1,3),(12,14),(13,15),(4,10),(5,11),(6,7),(8,9),(1,2),(3,12),(13,14),(4,6),
  (5,7),(8,10),(9,11),(1,4),(2,6),(5,8),(7,10),(9,13),(11,14),(2,4),(3,6),(9,12),(11,13),(3,5),(6,
  8),(7,9),(10,12),(3,4),(5,6),(7,8),(9,10),(11,12),(6,7),(8,9)] false)

theorem net16_sorts01 : Sorts01 16 net16 :=
  sorts01_of_check (p := plan16) (by decide +kernel)

/-- Plan for `net17`. -/
def plan17 : Plan := (.node (.node (.node (.node (.node (.node (.wire 0) (.wire 11) [(0,11)]
  false) (.wire 7) [(7,11)] false) (.node (.wire 4) (.wire 6) [(4,6)] false) [(0,6)] false)
  (.node (.wire 9) (.wire 16) [(9,16)] false) [(6,16)] false) (.node (.node (.wire 2) (.wire 10)
  [(2,10)] false) (.node (.wire 8) (.wire 12) [(8,12)] false) [(2,8)] false) [(0,8),(10,11),(0,
  2)] false) (.node (.node (.node (.wire 1) (.wire 15) [(1,15)] false) (.node (.wire 13) (.wire
  14) [(13,14)] false) [(1,13)] false) (.node (.wire 3) (.wire 5) [(3,5)] false) [(5,15)] false)
  [(4,14),(3,7),(5,6),(15,16),(4,9),(12,14),(7,13),(0,3),(2,5),(1,4),(8,9),(10,12),(11,14),(6,11),
  (7,10),(9,13),(12,15),(14,16),(0,1),(3,4),(5,10),(6,9),(7,8),(11,15),(13,14),(1,2),(3,7),(4,8),
  (6,12),(11,13),(14,15),(1,3),(2,7),(4,5),(9,11),(10,12),(13,14),(2,3),(4,6),(5,7),(8,10),(3,4),
  (6,8),(7,9),(10,12),(5,6),(7,8),(9,10),(11,12),(4,5),(6,7),(8,9),(10,11),(12,13)] false)

theorem net17_sorts01 : Sorts01 17 net17 :=
  sorts01_of_check (p := plan17) (by decide +kernel)

/-- Plan for `net18`. -/
def plan18 : Plan := (.node (.node (.node (.node (.node (.wire 0) (.wire 1) [(0,1)] false) (.node
  (.wire 2) (.wire 3) [(2,3)] false) [(0,2),(1,3)] false) (.node (.node (.wire 14) (.wire 15)
  [(14,15)] false) (.node (.wire 16) (.wire 17) [(16,17)] false) [(14,16),(15,17)] false) [(0,14),
  (1,16),(2,15),(3,17)] false) (.node (.node (.node (.wire 6) (.wire 7) [(6,7)] false) (.node
  (.wire 8) (.wire 9) [(8,9)] false) [(6,8)] false) (.node (.wire 10) (.wire 11) [(10,11)] false)
  [(9,11)] false) [(0,6),(1,10),(2,9),(7,16),(8,15),(11,17),(3,9),(8,14)] true) (.node (.node
  (.wire 4) (.wire 5) [(4,5)] false) (.node (.wire 12) (.wire 13) [(12,13)] false) [(4,12),(5,
  13)] false) [(1,4),(5,7),(10,12),(13,16),(0,1),(2,5),(3,13),(4,14),(7,9),(8,10),(12,15),(16,17),
  (1,2),(3,5),(4,6),(11,13),(12,14),(15,16),(4,8),(5,12),(6,10),(7,11),(9,13),(1,4),(2,8),(3,6),
  (5,7),(9,15),(10,12),(11,14),(13,16),(2,4),(5,8),(6,10),(7,11),(9,12),(13,15),(3,5),(6,8),(7,
  10),(9,11),(12,14),(3,4),(5,6),(7,8),(9,10),(11,12),(13,14)] false)

theorem net18_sorts01 : Sorts01 18 net18 :=
  sorts01_of_check (p := plan18) (by decide +kernel)

/-- Plan for `net19`. -/
def plan19 : Plan := (.node (.node (.node (.node (.node (.wire 1) (.wire 4) [(1,4)] false) (.node
  (.wire 7) (.wire 11) [(7,11)] false) [(1,7),(4,11)] false) (.node (.node (.wire 9) (.wire 14)
  [(9,14)] false) (.wire 18) [(14,18)] false) [(4,14),(7,9)] false) (.node (.node (.wire 0)
  (.wire 12) [(0,12)] false) (.node (.wire 2) (.wire 8) [(2,8)] false) [(0,2),(8,12)] false) [(0,
  7)] false) (.node (.node (.node (.wire 3) (.wire 5) [(3,5)] false) (.node (.wire 6) (.wire 17)
  [(6,17)] false) [(3,6),(5,17)] false) (.node (.node (.wire 10) (.wire 13) [(10,13)] false)
  (.node (.wire 15) (.wire 16) [(15,16)] false) [(10,15),(13,16)] false) [(3,10),(5,15),(6,13)]
  false) [(11,17),(16,18),(1,10),(4,6),(9,15),(13,14),(0,3),(5,7),(11,16),(12,17),(2,6),(3,4),(7,
  13),(8,11),(12,16),(2,9),(6,15),(1,8),(10,11),(12,18),(2,5),(6,9),(1,3),(7,12),(8,10),(11,14),
  (17,18),(0,1),(2,3),(4,8),(6,10),(9,12),(14,15),(16,17),(1,2),(5,8),(6,7),(9,11),(10,13),(14,
  16),(15,17),(3,6),(4,5),(7,9),(8,10),(11,12),(13,14),(15,16),(3,4),(5,6),(7,8),(9,10),(11,13),
  (12,14),(2,3),(4,5),(6,7),(8,9),(10,11),(12,13),(14,15)] false)

theorem net19_sorts01 : Sorts01 19 net19 :=
  sorts01_of_check (p := plan19) (by decide +kernel)

/-- Plan for `net20`. -/
def plan20 : Plan := (.node (.node (.node (.node (.node (.wire 1) (.wire 7) [(1,7)] false) (.node
  (.wire 11) (.wire 15) [(11,15)] false) [(1,11),(7,15)] false) (.node (.node (.wire 2) (.wire 5)
  [(2,5)] false) (.node (.wire 16) (.wire 19) [(16,19)] false) [(2,16),(5,19)] false) [(1,2),(5,
  7),(11,16),(15,19)] false) (.node (.node (.wire 6) (.wire 9) [(6,9)] false) (.node (.wire 10)
  (.wire 13) [(10,13)] false) [(6,10),(9,13)] false) [(1,6)] false) (.node (.node (.node (.wire
  0) (.wire 3) [(0,3)] false) (.node (.wire 14) (.wire 17) [(14,17)] false) [(0,14),(3,17)]
  false) (.node (.node (.wire 4) (.wire 8) [(4,8)] false) (.node (.wire 12) (.wire 18) [(12,18)]
  false) [(4,12),(8,18)] false) [(0,4),(3,8),(12,14),(17,18)] false) [(2,12),(3,5),(4,11),(7,17),
  (8,15),(13,18),(14,16),(0,1),(2,6),(7,10),(9,12),(13,17),(18,19),(1,6),(5,9),(7,11),(8,12),(10,
  14),(13,18),(3,5),(4,7),(8,10),(9,11),(12,15),(14,16),(1,3),(2,4),(5,7),(6,10),(9,13),(12,14),
  (15,17),(16,18),(1,2),(3,4),(6,7),(8,9),(10,11),(12,13),(15,16),(17,18),(2,3),(4,6),(5,8),(7,9),
  (10,12),(11,14),(13,15),(16,17),(4,5),(6,8),(7,10),(9,12),(11,13),(14,15),(3,4),(5,6),(7,8),(9,
  10),(11,12),(13,14),(15,16)] false)

theorem net20_sorts01 : Sorts01 20 net20 :=
  sorts01_of_check (p := plan20) (by decide +kernel)

end CppSort
