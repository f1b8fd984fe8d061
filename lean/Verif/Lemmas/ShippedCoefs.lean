import Verif.Lemmas.ShippedCheck

/-!
# Sizes of the shipped units

Generated by `tools/gen_values.py`; checked against the table in `Lemmas/ShippedValues.lean`.
-/

namespace PQ.Shipped

/-- Size of unit row `i` in base units: `(p, q, k)` stands for `p / q * π ^ k`; `q = 0` for the two units whose size is
not of this form. -/
def coefs : List (Nat × Nat × Int) := [
  (1, 1, 0),
  (1, 1, 0),
  (1000, 1, 0),
  (1000000, 1, 0),
  (1, 1000, 0),
  (1, 1000000, 0),
  (1, 1000000000, 0),
  (1, 1000000000000, 0),
  (1, 1000000000000000, 0),
  (1, 1000000000000000000, 0),
  (60, 1, 0),
  (3600, 1, 0),
  (86400, 1, 0),
  (604800, 1, 0),
  (1209600, 1, 0),
  (315569259747, 10000, 0),
  (105189753249, 40000, 0),
  (1, 100000000, 0),
  (2160000000000000000000, 25068447733769881, 0),
  (90000000000000000000, 25068447733769881, 0),
  (1500000000000000000, 25068447733769881, 0),
  (25000000000000000, 25068447733769881, 0),
  (791113738507200000000000, 25068447733769881, 0),
  (1475369694, 625, 0),
  (1475365428, 625, 0),
  (1594651806, 625, 0),
  (31536000, 1, 0),
  (31622400, 1, 0),
  (31557600, 1, 0),
  (31556952, 1, 0),
  (315569259747, 10, 0),
  (31556925974700000, 1, 0),
  (7401600, 1, 0),
  (616800, 1, 0),
  (1, 1, 0),
  (1000, 1, 0),
  (1, 10, 0),
  (1, 100, 0),
  (1, 1000, 0),
  (1, 1000000, 0),
  (1, 1000000000, 0),
  (1, 1000000000000, 0),
  (1, 10000000000, 0),
  (1, 1000000000000000, 0),
  (127, 5000, 0),
  (381, 1250, 0),
  (201168, 125, 0),
  (1143, 1250, 0),
  (127, 5000000, 0),
  (30856802500000000, 1, 0),
  (9460730472580800, 1, 0),
  (149597870691, 1, 0),
  (1852, 1, 0),
  (127, 360000, 0),
  (127, 30000, 0),
  (1200, 3937, 0),
  (3600, 3937, 0),
  (6336000, 3937, 0),
  (19800, 3937, 0),
  (792000, 3937, 0),
  (7200, 3937, 0),
  (79200, 3937, 0),
  (127, 15000, 0),
  (14617827, 250000, 0),
  (100, 1, 0),
  (196133, 20000, 0),
  (1, 1, 0),
  (1, 1000, 0),
  (1, 1000000, 0),
  (2, 1, 1),
  (1, 180, 1),
  (1, 10800, 1),
  (1, 648000, 1),
  (1, 200, 1),
  (1, 180, 1),
  (1, 180, 1),
  (1, 180, 1),
  (1, 180, 1),
  (1, 1, 0),
  (100, 1, 0),
  (1, 10000000000000000000000000000, 0),
  (202683, 400000000000000, 0),
  (9869233, 10000000000000000000, 0),
  (9869233, 10000000000000000000000, 0),
  (10000, 1, 0),
  (316160658, 78125, 0),
  (62726400000, 15499969, 0),
  (30856802500000000000000, 1, 0),
  (1, 1, 0),
  (1, 1000, 0),
  (1, 1000000, 0),
  (1, 1000, 0),
  (1, 1000000, 0),
  (1, 1, 0),
  (1000, 1, 0),
  (1000000, 1, 0),
  (1, 1000000, 0),
  (1, 1, 0),
  (55306341, 19531250, 0),
  (60228605349, 48828125, 0),
  (18435447, 7812500000, 0),
  (220244188543, 6250000000000, 0),
  (220244188543, 50000000000000, 0),
  (473176473, 125000000000, 0),
  (220244188543, 200000000000000, 0),
  (220244188543, 400000000000000, 0),
  (473176473, 500000000000, 0),
  (473176473, 1000000000000, 0),
  (473176473, 2000000000000, 0),
  (473176473, 4000000000000, 0),
  (473176473, 16000000000000, 0),
  (454609, 12500000, 0),
  (454609, 100000000, 0),
  (454609, 400000000, 0),
  (454609, 800000000, 0),
  (454609, 1600000000, 0),
  (454609, 3200000000, 0),
  (454609, 16000000000, 0),
  (9936705933, 62500000000, 0),
  (473176473, 32000000000000, 0),
  (157725491, 32000000000000, 0),
  (220244188543, 25000000000000, 0),
  (473176473, 128000000000000, 0),
  (9936705933, 250000000000, 0),
  (1000, 1, 0),
  (1, 1, 0),
  (1, 1000, 0),
  (1, 100, 0),
  (1, 1, 0),
  (1, 1, 0),
  (1, 1, 0),
  (1, 1000, 0),
  (1, 1000000, 0),
  (45359237, 1600000000, 0),
  (45359237, 100000000, 0),
  (317514659, 50000000, 0),
  (1, 5000, 0),
  (6479891, 100000000000, 0),
  (317514659, 6250000, 0),
  (45359237, 1000000, 0),
  (1000, 1, 0),
  (19439673, 12500000000, 0),
  (145939, 10000, 0),
  (19439673, 625000000, 0),
  (58319019, 156250000, 0),
  (830269391, 500000000000000000000000000000000000, 0),
  (6479891, 5000000000, 0),
  (45359237, 25600000000, 0),
  (19439673, 5000000000, 0),
  (2131884139, 50000000, 0),
  (45359237, 50000, 0),
  (317514659, 312500, 0),
  (1, 9000000, 0),
  (1, 1000000, 0),
  (1, 10000000, 0),
  (1, 1, 0),
  (1000, 1, 0),
  (1, 100000, 0),
  (196133, 20000, 0),
  (196133, 20000, 0),
  (8896443230521, 32000000000000, 0),
  (8896443230521, 2000000000000, 0),
  (17281869297, 125000000000, 0),
  (196133, 20000000, 0),
  (8896443230521, 1000000000, 0),
  (8896443230521, 2000000000, 0),
  (1, 1, 0),
  (1, 10000000, 0),
  (52752792631, 50000000, 0),
  (160217653, 1000000000000000000000000000, 0),
  (160217653, 1000000000000000000000000000000, 0),
  (160217653, 1000000000000000000000000, 0),
  (160217653, 1000000000000000000000, 0),
  (160217653, 1000000000000000000, 0),
  (52752792631, 500, 0),
  (523, 125, 0),
  (10467, 2500, 0),
  (4184000000, 1, 0),
  (105480400, 1, 0),
  (3600, 1, 0),
  (3600000, 1, 0),
  (3600000000, 1, 0),
  (3600000000000, 1, 0),
  (217987197, 50000000000000000000000000, 0),
  (299792458, 1, 0),
  (463, 900, 0),
  (1, 1, 0),
  (1, 1000, 0),
  (1, 1000000, 0),
  (1, 1000000000, 0),
  (1, 1000000000000, 0),
  (10, 1, 0),
  (0, 0, 0),
  (0, 0, 0),
  (1, 1, 0),
  (5, 2, -1),
  (1, 1, 0),
  (1, 1000, 0),
  (1, 1000000, 0),
  (1, 1, 0),
  (1000, 1, 0),
  (1, 1000, 0),
  (1, 1000000, 0),
  (1, 1, 0),
  (1, 1000, 0),
  (1, 1000000, 0),
  (1, 1000000000, 0),
  (1, 1000000000000, 0),
  (1, 1000000000000000, 0),
  (1, 1, 0),
  (1000, 1, 0),
  (1000000, 1, 0),
  (1, 1, 0),
  (1, 1000, 0),
  (1, 1000000, 0),
  (1, 1000000000, 0),
  (1, 1000000000000, 0),
  (1, 1, 0),
  (1, 1, 0),
  (1, 1, 0),
  (1000000000, 1, 0),
  (1, 1000000000, 0),
  (1000000000, 1, 0),
  (1, 1000000000, 0),
  (1, 100000000, 0),
  (1602176487, 10000000000000000000000000000, 0),
  (964957, 10, 0),
  (965219, 10, 0),
  (964853399, 10000, 0),
  (1, 1000000000, 0),
  (1, 10000, 0),
  (1, 100000000, 0),
  (250, 1, -1),
  (22253, 20000000000000000, 0),
  (898755400000, 1, 0),
  (22253, 20000000000000000, 0),
  (898755400000, 1, 0),
  (119917, 400, 0),
  (1256637, 10000000000000, 0),
  (1, 2500000, 1),
  (625000, 22468879468420441, -1),
  (149896229, 1250000, 1),
  (1, 1, 0),
  (1, 1, 0),
  (1000, 1, 0),
  (1000000, 1, 0),
  (1000000000, 1, 0),
  (1, 30, 1),
  (1, 1, 0),
  (1, 1, 0),
  (1000000000000000000000000, 1, 0),
  (1000000000000000000000, 1, 0),
  (1000000000000000000, 1, 0),
  (1000000000000000, 1, 0),
  (1000000000000, 1, 0),
  (1000000000, 1, 0),
  (1000000, 1, 0),
  (1000, 1, 0),
  (100, 1, 0),
  (10, 1, 0),
  (1, 10, 0),
  (1, 100, 0),
  (1, 1000, 0),
  (1, 1000000, 0),
  (1, 1000000000, 0),
  (1, 1000000000000, 0),
  (1, 1000000000000000, 0),
  (1, 1000000000000000000, 0),
  (1, 1000000000000000000000, 0),
  (1, 1000000000000000000000000, 0),
  (5, 9, 0),
  (1, 1, 0),
  (5, 9, 0),
  (1, 1, 0),
  (1, 1000, 0),
  (1000, 1, 0),
  (1000000, 1, 0),
  (37284993579113511, 50000000000000, 0),
  (70635989332909, 7200000000, 0),
  (588399, 800, 0),
  (746, 1, 0),
  (746043, 1000, 0),
  (52752792631, 15000000, 0),
  (1, 1, 0),
  (31, 200, 0),
  (9290304000, 52752792631, 0),
  (1, 1, 0),
  (8, 1, 0),
  (8000, 1, 0),
  (8000000, 1, 0),
  (8000000000, 1, 0),
  (8000000000000, 1, 0),
  (8000000000000000, 1, 0),
  (8000000000000000000, 1, 0),
  (8000000000000000000000, 1, 0),
  (8000000000000000000000000, 1, 0),
  (1, 1, 0),
  (8192, 1, 0),
  (8388608, 1, 0),
  (8589934592, 1, 0),
  (8796093022208, 1, 0),
  (9007199254740992, 1, 0),
  (9223372036854775808, 1, 0),
  (9444732965739290427392, 1, 0),
  (9671406556917033397649408, 1, 0),
  (26664477483, 200000, 0),
  (1661834909, 12500, 0),
  (196133, 20, 0),
  (49031877069, 5000000, 0),
  (195937063133, 20000000, 0),
  (1, 1, 0),
  (100, 1, 0),
  (1000, 1, 0),
  (1000000, 1, 0),
  (1000000000, 1, 0),
  (100000, 1, 0),
  (100, 1, 0),
  (100000000, 1, 0),
  (100000000000, 1, 0),
  (100000000000000, 1, 0),
  (101325, 1, 0),
  (196133, 2, 0),
  (20265, 152, 0),
  (8896443230521, 1290320000, 0),
  (8896443230521, 1290320, 0),
  (1, 10, 0),
  (26664477483, 200000000, 0),
  (26664477483, 20000000, 0),
  (3386388640341, 1000000000, 0),
  (211053033443, 62500000, 0),
  (6227048387763, 25000000000, 0),
  (24884007017891, 100000000000, 0),
  (74726673, 25000, 0),
  (196133, 2000, 0),
  (74726673, 25000, 0),
  (1, 1, 0),
  (37000000000, 1, 0),
  (1000000, 1, 0),
  (1, 1, 0),
  (1, 100, 0),
  (1, 100, 0),
  (129, 500000, 0),
  (1, 10, 0),
  (1, 1000, 0),
  (1, 10000, 0),
  (10, 1, 0)]

/-- The labels of the units, as code points, with their rows. -/
def unitLabels : List (List Nat × Nat) := [
  ([100, 105, 109, 101, 110, 115, 105, 111, 110, 108, 101, 115, 115], 0),
  ([115, 101, 99, 111, 110, 100], 1),
  ([115], 1),
  ([115, 101, 99], 1),
  ([115, 101, 99, 111, 110, 100, 115], 1),
  ([107, 105, 108, 111, 115, 101, 99, 111, 110, 100], 2),
  ([107, 115], 2),
  ([107, 105, 108, 111, 115, 101, 99, 111, 110, 100, 115], 2),
  ([109, 101, 103, 97, 115, 101, 99, 111, 110, 100], 3),
  ([77, 115], 3),
  ([109, 101, 103, 97, 115, 101, 99, 111, 110, 100, 115], 3),
  ([109, 105, 108, 108, 105, 115, 101, 99, 111, 110, 100], 4),
  ([109, 115], 4),
  ([109, 105, 108, 108, 105, 115, 101, 99, 111, 110, 100, 115], 4),
  ([109, 105, 99, 114, 111, 115, 101, 99, 111, 110, 100], 5),
  ([117, 115], 5),
  ([109, 105, 99, 114, 111, 115, 101, 99, 111, 110, 100, 115], 5),
  ([110, 97, 110, 111, 115, 101, 99, 111, 110, 100], 6),
  ([110, 115], 6),
  ([110, 97, 110, 111, 115, 101, 99, 111, 110, 100, 115], 6),
  ([112, 105, 99, 111, 115, 101, 99, 111, 110, 100], 7),
  ([112, 115], 7),
  ([112, 105, 99, 111, 115, 101, 99, 111, 110, 100, 115], 7),
  ([102, 101, 109, 116, 111, 115, 101, 99, 111, 110, 100], 8),
  ([102, 115], 8),
  ([102, 101, 109, 116, 111, 115, 101, 99, 111, 110, 100, 115], 8),
  ([97, 116, 116, 111, 115, 101, 99, 111, 110, 100], 9),
  ([97, 115], 9),
  ([97, 116, 116, 111, 115, 101, 99, 111, 110, 100, 115], 9),
  ([109, 105, 110, 117, 116, 101], 10),
  ([109, 105, 110], 10),
  ([109, 105, 110, 117, 116, 101, 115], 10),
  ([104, 111, 117, 114], 11),
  ([104], 11),
  ([104, 114], 11),
  ([104, 111, 117, 114, 115], 11),
  ([100, 97, 121], 12),
  ([100], 12),
  ([100, 97, 121, 115], 12),
  ([119, 101, 101, 107], 13),
  ([119, 101, 101, 107, 115], 13),
  ([102, 111, 114, 116, 110, 105, 103, 104, 116], 14),
  ([102, 111, 114, 116, 110, 105, 103, 104, 116, 115], 14),
  ([121, 101, 97, 114], 15),
  ([121, 114], 15),
  ([97], 15),
  ([121, 101, 97, 114, 115], 15),
  ([116, 114, 111, 112, 105, 99, 97, 108, 95, 121, 101, 97, 114], 15),
  ([116, 114, 111, 112, 105, 99, 97, 108, 95, 121, 101, 97, 114, 115], 15),
  ([109, 111, 110, 116, 104], 16),
  ([109, 111, 110, 116, 104, 115], 16),
  ([115, 104, 97, 107, 101], 17),
  ([115, 104, 97, 107, 101, 115], 17),
  ([115, 105, 100, 101, 114, 101, 97, 108, 95, 100, 97, 121], 18),
  ([115, 105, 100, 101, 114, 101, 97, 108, 95, 100, 97, 121, 115], 18),
  ([115, 105, 100, 101, 114, 101, 97, 108, 95, 104, 111, 117, 114], 19),
  ([115, 105, 100, 101, 114, 101, 97, 108, 95, 104, 111, 117, 114, 115], 19),
  ([115, 105, 100, 101, 114, 101, 97, 108, 95, 109, 105, 110, 117, 116, 101], 20),
  ([115, 105, 100, 101, 114, 101, 97, 108, 95, 109, 105, 110, 117, 116, 101, 115], 20),
  ([115, 105, 100, 101, 114, 101, 97, 108, 95, 115, 101, 99, 111, 110, 100], 21),
  ([115, 105, 100, 101, 114, 101, 97, 108, 95, 115, 101, 99, 111, 110, 100, 115], 21),
  ([115, 105, 100, 101, 114, 101, 97, 108, 95, 121, 101, 97, 114], 22),
  ([115, 105, 100, 101, 114, 101, 97, 108, 95, 121, 101, 97, 114, 115], 22),
  ([115, 105, 100, 101, 114, 101, 97, 108, 95, 109, 111, 110, 116, 104], 23),
  ([115, 105, 100, 101, 114, 101, 97, 108, 95, 109, 111, 110, 116, 104, 115], 23),
  ([116, 114, 111, 112, 105, 99, 97, 108, 95, 109, 111, 110, 116, 104], 24),
  ([116, 114, 111, 112, 105, 99, 97, 108, 95, 109, 111, 110, 116, 104, 115], 24),
  ([115, 121, 110, 111, 100, 105, 99, 95, 109, 111, 110, 116, 104], 25),
  ([115, 121, 110, 111, 100, 105, 99, 95, 109, 111, 110, 116, 104, 115], 25),
  ([108, 117, 110, 97, 114, 95, 109, 111, 110, 116, 104], 25),
  ([108, 117, 110, 97, 114, 95, 109, 111, 110, 116, 104, 115], 25),
  ([99, 111, 109, 109, 111, 110, 95, 121, 101, 97, 114], 26),
  ([99, 111, 109, 109, 111, 110, 95, 121, 101, 97, 114, 115], 26),
  ([108, 101, 97, 112, 95, 121, 101, 97, 114], 27),
  ([108, 101, 97, 112, 95, 121, 101, 97, 114, 115], 27),
  ([74, 117, 108, 105, 97, 110, 95, 121, 101, 97, 114], 28),
  ([74, 117, 108, 105, 97, 110, 95, 121, 101, 97, 114, 115], 28),
  ([71, 114, 101, 103, 111, 114, 105, 97, 110, 95, 121, 101, 97, 114], 29),
  ([71, 114, 101, 103, 111, 114, 105, 97, 110, 95, 121, 101, 97, 114, 115], 29),
  ([109, 105, 108, 108, 101, 110, 105, 117, 109], 30),
  ([109, 105, 108, 108, 101, 110, 105, 97], 30),
  ([101, 111, 110], 31),
  ([101, 111, 110, 115], 31),
  ([119, 111, 114, 107, 95, 121, 101, 97, 114], 32),
  ([119, 111, 114, 107, 95, 121, 101, 97, 114, 115], 32),
  ([119, 111, 114, 107, 95, 109, 111, 110, 116, 104], 33),
  ([119, 111, 114, 107, 95, 109, 111, 110, 116, 104, 115], 33),
  ([109, 101, 116, 101, 114], 34),
  ([109], 34),
  ([109, 101, 116, 101, 114, 115], 34),
  ([109, 101, 116, 114, 101], 34),
  ([109, 101, 116, 114, 101, 115], 34),
  ([107, 105, 108, 111, 109, 101, 116, 101, 114], 35),
  ([107, 109], 35),
  ([107, 105, 108, 111, 109, 101, 116, 101, 114, 115], 35),
  ([107, 105, 108, 111, 109, 101, 116, 114, 101], 35),
  ([107, 105, 108, 111, 109, 101, 116, 114, 101, 115], 35),
  ([100, 101, 99, 105, 109, 101, 116, 101, 114], 36),
  ([100, 109], 36),
  ([100, 101, 99, 105, 109, 101, 116, 101, 114, 115], 36),
  ([100, 101, 99, 105, 109, 101, 116, 114, 101], 36),
  ([100, 101, 99, 105, 109, 101, 116, 114, 101, 115], 36),
  ([99, 101, 110, 116, 105, 109, 101, 116, 101, 114], 37),
  ([99, 109], 37),
  ([99, 101, 110, 116, 105, 109, 101, 116, 101, 114, 115], 37),
  ([99, 101, 110, 116, 105, 109, 101, 116, 114, 101], 37),
  ([99, 101, 110, 116, 105, 109, 101, 116, 114, 101, 115], 37),
  ([109, 105, 108, 108, 105, 109, 101, 116, 101, 114], 38),
  ([109, 109], 38),
  ([109, 105, 108, 108, 105, 109, 101, 116, 101, 114, 115], 38),
  ([109, 105, 108, 108, 105, 109, 101, 116, 114, 101], 38),
  ([109, 105, 108, 108, 105, 109, 101, 116, 114, 101, 115], 38),
  ([109, 105, 99, 114, 111, 109, 101, 116, 101, 114], 39),
  ([117, 109], 39),
  ([109, 105, 99, 114, 111, 110], 39),
  ([109, 105, 99, 114, 111, 110, 115], 39),
  ([109, 105, 99, 114, 111, 109, 101, 116, 101, 114, 115], 39),
  ([109, 105, 99, 114, 111, 109, 101, 116, 114, 101], 39),
  ([109, 105, 99, 114, 111, 109, 101, 116, 114, 101, 115], 39),
  ([110, 97, 110, 111, 109, 101, 116, 101, 114], 40),
  ([110, 109], 40),
  ([110, 97, 110, 111, 109, 101, 116, 101, 114, 115], 40),
  ([110, 97, 110, 111, 109, 101, 116, 114, 101], 40),
  ([110, 97, 110, 111, 109, 101, 116, 114, 101, 115], 40),
  ([112, 105, 99, 111, 109, 101, 116, 101, 114], 41),
  ([112, 109], 41),
  ([112, 105, 99, 111, 109, 101, 116, 101, 114, 115], 41),
  ([112, 105, 99, 111, 109, 101, 116, 114, 101], 41),
  ([112, 105, 99, 111, 109, 101, 116, 114, 101, 115], 41),
  ([97, 110, 103, 115, 116, 114, 111, 109], 42),
  ([97, 110, 103, 115, 116, 114, 111, 109, 115], 42),
  ([102, 101, 109, 116, 111, 109, 101, 116, 101, 114], 43),
  ([102, 109], 43),
  ([102, 101, 109, 116, 111, 109, 101, 116, 101, 114, 115], 43),
  ([102, 101, 109, 116, 111, 109, 101, 116, 114, 101], 43),
  ([102, 101, 109, 116, 111, 109, 101, 116, 114, 101, 115], 43),
  ([102, 101, 114, 109, 105], 43),
  ([102, 101, 114, 109, 105, 115], 43),
  ([105, 110, 99, 104], 44),
  ([105, 110], 44),
  ([105, 110, 99, 104, 101, 115], 44),
  ([105, 110, 116, 101, 114, 110, 97, 116, 105, 111, 110, 97, 108, 95, 105, 110, 99, 104], 44),
  ([105, 110, 116, 101, 114, 110, 97, 116, 105, 111, 110, 97, 108, 95, 105, 110, 99, 104, 101, 115], 44),
  ([102, 111, 111, 116], 45),
  ([102, 116], 45),
  ([102, 101, 101, 116], 45),
  ([105, 110, 116, 101, 114, 110, 97, 116, 105, 111, 110, 97, 108, 95, 102, 111, 111, 116, 105, 110, 116, 101, 114, 110, 97, 116, 105, 111, 110, 97, 108, 95, 102, 101, 101, 116], 45),
  ([109, 105, 108, 101], 46),
  ([109, 105], 46),
  ([109, 105, 108, 101, 115], 46),
  ([105, 110, 116, 101, 114, 110, 97, 116, 105, 111, 110, 97, 108, 95, 109, 105, 108, 101], 46),
  ([105, 110, 116, 101, 114, 110, 97, 116, 105, 111, 110, 97, 108, 95, 109, 105, 108, 101, 115], 46),
  ([121, 97, 114, 100], 47),
  ([121, 100], 47),
  ([121, 97, 114, 100, 115], 47),
  ([105, 110, 116, 101, 114, 110, 97, 116, 105, 111, 110, 97, 108, 95, 121, 97, 114, 100], 47),
  ([105, 110, 116, 101, 114, 110, 97, 116, 105, 111, 110, 97, 108, 95, 121, 97, 114, 100, 115], 47),
  ([109, 105, 108], 48),
  ([109, 105, 108, 115], 48),
  ([116, 104, 111, 117], 48),
  ([116, 104, 111, 117, 115], 48),
  ([112, 97, 114, 115, 101, 99], 49),
  ([112, 99], 49),
  ([112, 97, 114, 115, 101, 99, 115], 49),
  ([108, 105, 103, 104, 116, 95, 121, 101, 97, 114], 50),
  ([108, 121], 50),
  ([108, 105, 103, 104, 116, 95, 121, 101, 97, 114, 115], 50),
  ([97, 115, 116, 114, 111, 110, 111, 109, 105, 99, 97, 108, 95, 117, 110, 105, 116], 51),
  ([97, 117], 51),
  ([97, 115, 116, 114, 111, 110, 111, 109, 105, 99, 97, 108, 95, 117, 110, 105, 116, 115], 51),
  ([110, 97, 117, 116, 105, 99, 97, 108, 95, 109, 105, 108, 101], 52),
  ([110, 109, 105], 52),
  ([110, 109, 105, 108, 101], 52),
  ([110, 109, 105, 108, 101, 115], 52),
  ([110, 97, 117, 116, 105, 99, 97, 108, 95, 109, 105, 108, 101, 115], 52),
  ([112, 114, 105, 110, 116, 101, 114, 115, 95, 112, 111, 105, 110, 116], 53),
  ([112, 111, 105, 110, 116], 53),
  ([112, 114, 105, 110, 116, 101, 114, 115, 95, 112, 111, 105, 110, 116, 115], 53),
  ([112, 111, 105, 110, 116, 115], 53),
  ([112, 105, 99, 97], 54),
  ([112, 105, 99, 97, 115], 54),
  ([112, 114, 105, 110, 116, 101, 114, 115, 95, 112, 105, 99, 97], 54),
  ([112, 114, 105, 110, 116, 101, 114, 115, 95, 112, 105, 99, 97, 115], 54),
  ([85, 83, 95, 115, 117, 114, 118, 101, 121, 95, 102, 111, 111, 116], 55),
  ([85, 83, 95, 115, 117, 114, 118, 101, 121, 95, 102, 101, 101, 116], 55),
  ([85, 83, 95, 115, 117, 114, 118, 101, 121, 95, 121, 97, 114, 100], 56),
  ([85, 83, 95, 115, 117, 114, 118, 101, 121, 95, 121, 97, 114, 100, 115], 56),
  ([85, 83, 95, 115, 117, 114, 118, 101, 121, 95, 109, 105, 108, 101], 57),
  ([85, 83, 95, 115, 117, 114, 118, 101, 121, 95, 109, 105, 108, 101, 115], 57),
  ([85, 83, 95, 115, 116, 97, 116, 117, 116, 101, 95, 109, 105, 108, 101], 57),
  ([85, 83, 95, 115, 116, 97, 116, 117, 116, 101, 95, 109, 105, 108, 101, 115], 57),
  ([114, 111, 100], 58),
  ([114, 111, 100, 115], 58),
  ([112, 111, 108, 101], 58),
  ([112, 111, 108, 101, 115], 58),
  ([112, 101, 114, 99, 104], 58),
  ([112, 101, 114, 99, 104, 101, 115], 58),
  ([102, 117, 114, 108, 111, 110, 103], 59),
  ([102, 117, 114, 108, 111, 110, 103, 115], 59),
  ([102, 97, 116, 104, 111, 109], 60),
  ([102, 97, 116, 104, 111, 109, 115], 60),
  ([99, 104, 97, 105, 110], 61),
  ([99, 104, 97, 105, 110, 115], 61),
  ([98, 97, 114, 108, 101, 121, 99, 111, 114, 110], 62),
  ([98, 97, 114, 108, 101, 121, 99, 111, 114, 110, 115], 62),
  ([97, 114, 112, 101, 110, 116, 108, 105, 110], 63),
  ([107, 97, 121, 115, 101, 114], 64),
  ([107, 97, 121, 115, 101, 114, 115], 64),
  ([119, 97, 118, 101, 110, 117, 109, 98, 101, 114], 64),
  ([119, 97, 118, 101, 110, 117, 109, 98, 101, 114, 115], 64),
  ([115, 116, 97, 110, 100, 97, 114, 100, 95, 103, 114, 97, 118, 105, 116, 121], 65),
  ([103, 95, 48], 65),
  ([114, 97, 100, 105, 97, 110], 66),
  ([114, 97, 100], 66),
  ([114, 97, 100, 105, 97, 110, 115], 66),
  ([109, 105, 108, 108, 105, 114, 97, 100, 105, 97, 110], 67),
  ([109, 114, 97, 100], 67),
  ([109, 105, 108, 108, 105, 114, 97, 100, 105, 97, 110, 115], 67),
  ([109, 105, 99, 114, 111, 114, 97, 100, 105, 97, 110], 68),
  ([117, 114, 97, 100], 68),
  ([109, 105, 99, 114, 111, 114, 97, 100, 105, 97, 110, 115], 68),
  ([116, 117, 114, 110], 69),
  ([116, 117, 114, 110, 115], 69),
  ([114, 101, 118, 111, 108, 117, 116, 105, 111, 110, 115], 69),
  ([99, 105, 114, 99, 108, 101, 115], 69),
  ([99, 121, 99, 108, 101, 115], 69),
  ([97, 114, 99, 100, 101, 103, 114, 101, 101], 70),
  ([100, 101, 103], 70),
  ([100, 101, 103, 114, 101, 101], 70),
  ([100, 101, 103, 114, 101, 101, 115], 70),
  ([97, 114, 99, 95, 100, 101, 103, 114, 101, 101], 70),
  ([97, 114, 99, 95, 100, 101, 103, 114, 101, 101, 115], 70),
  ([97, 110, 103, 117, 108, 97, 114, 95, 100, 101, 103, 114, 101, 101], 70),
  ([97, 110, 103, 117, 108, 97, 114, 95, 100, 101, 103, 114, 101, 101, 115], 70),
  ([97, 114, 99, 100, 101, 103, 114, 101, 101, 115], 70),
  ([97, 114, 99, 100, 101, 103], 70),
  ([97, 114, 99, 109, 105, 110, 117, 116, 101], 71),
  ([97, 114, 99, 109, 105, 110], 71),
  ([97, 114, 99, 109, 105, 110, 115], 71),
  ([97, 114, 99, 109, 105, 110, 117, 116, 101, 115], 71),
  ([97, 114, 99, 95, 109, 105, 110, 117, 116, 101], 71),
  ([97, 114, 99, 95, 109, 105, 110, 117, 116, 101, 115], 71),
  ([97, 110, 103, 117, 108, 97, 114, 95, 109, 105, 110, 117, 116, 101], 71),
  ([97, 110, 103, 117, 108, 97, 114, 95, 109, 105, 110, 117, 116, 101, 115], 71),
  ([97, 114, 99, 115, 101, 99, 111, 110, 100], 72),
  ([97, 114, 99, 115, 101, 99], 72),
  ([97, 114, 99, 115, 101, 99, 115], 72),
  ([97, 114, 99, 115, 101, 99, 111, 110, 100, 115], 72),
  ([97, 114, 99, 95, 115, 101, 99, 111, 110, 100], 72),
  ([97, 114, 99, 95, 115, 101, 99, 111, 110, 100, 115], 72),
  ([97, 110, 103, 117, 108, 97, 114, 95, 115, 101, 99, 111, 110, 100], 72),
  ([97, 110, 103, 117, 108, 97, 114, 95, 115, 101, 99, 111, 110, 100, 115], 72),
  ([103, 114, 97, 100], 73),
  ([103, 114, 97, 100, 115], 73),
  ([103, 114, 97, 100, 101], 73),
  ([103, 114, 97, 100, 101, 115], 73),
  ([103, 114, 111, 110], 73),
  ([103, 114, 111, 110, 115], 73),
  ([103, 114, 97, 100, 105, 97, 110], 73),
  ([103, 114, 97, 100, 105, 97, 110, 115], 73),
  ([100, 101, 103, 114, 101, 101, 115, 95, 110, 111, 114, 116, 104], 74),
  ([100, 101, 103, 78], 74),
  ([100, 101, 103, 114, 101, 101, 115, 95, 78], 74),
  ([100, 101, 103, 114, 101, 101, 115, 95, 101, 97, 115, 116], 75),
  ([100, 101, 103, 69], 75),
  ([100, 101, 103, 114, 101, 101, 115, 95, 69], 75),
  ([100, 101, 103, 114, 101, 101, 115, 95, 119, 101, 115, 116], 76),
  ([100, 101, 103, 87], 76),
  ([100, 101, 103, 114, 101, 101, 115, 95, 87], 76),
  ([100, 101, 103, 114, 101, 101, 115, 95, 116, 114, 117, 101], 77),
  ([100, 101, 103, 84], 77),
  ([100, 101, 103, 114, 101, 101, 115, 95, 84], 77),
  ([115, 116, 101, 114, 97, 100, 105, 97, 110], 78),
  ([115, 114], 78),
  ([115, 116, 101, 114, 97, 100, 105, 97, 110, 115], 78),
  ([97, 114, 101], 79),
  ([97, 114, 101, 115], 79),
  ([98, 97, 114, 110], 80),
  ([98], 80),
  ([98, 97, 114, 110, 101, 115], 80),
  ([99, 105, 114, 99, 117, 108, 97, 114, 95, 109, 105, 108], 81),
  ([99, 109, 105, 108], 81),
  ([99, 105, 114, 99, 117, 108, 97, 114, 95, 109, 105, 108, 115], 81),
  ([100, 97, 114, 99, 121], 82),
  ([68], 82),
  ([109, 105, 108, 108, 105, 100, 97, 114, 99, 121], 83),
  ([109, 68], 83),
  ([104, 101, 99, 116, 97, 114, 101], 84),
  ([104, 97], 84),
  ([104, 101, 99, 116, 97, 114, 101, 115], 84),
  ([97, 99, 114, 101], 85),
  ([97, 99, 114, 101, 115], 85),
  ([105, 110, 116, 101, 114, 110, 97, 116, 105, 111, 110, 97, 108, 95, 97, 99, 114, 101], 85),
  ([105, 110, 116, 101, 114, 110, 97, 116, 105, 111, 110, 97, 108, 95, 97, 99, 114, 101, 115], 85),
  ([85, 83, 95, 115, 117, 114, 118, 101, 121, 95, 97, 99, 114, 101], 86),
  ([85, 83, 95, 115, 117, 114, 118, 101, 121, 95, 97, 99, 114, 101, 115], 86),
  ([109, 111, 108, 101], 88),
  ([109, 111, 108], 88),
  ([109, 105, 108, 108, 105, 109, 111, 108, 101], 89),
  ([109, 109, 111, 108], 89),
  ([109, 105, 99, 114, 111, 109, 111, 108, 101], 90),
  ([117, 109, 111, 108], 90),
  ([108, 105, 116, 101, 114], 91),
  ([76], 91),
  ([108], 91),
  ([108, 105, 116, 101, 114, 115], 91),
  ([108, 105, 116, 114, 101], 91),
  ([108, 105, 116, 114, 101, 115], 91),
  ([109, 105, 108, 108, 105, 108, 105, 116, 101, 114], 92),
  ([109, 76], 92),
  ([109, 108], 92),
  ([109, 105, 108, 108, 105, 108, 105, 116, 101, 114, 115], 92),
  ([109, 105, 108, 108, 105, 108, 105, 116, 114, 101], 92),
  ([109, 105, 108, 108, 105, 108, 105, 116, 114, 101, 115], 92),
  ([107, 105, 108, 111, 108, 105, 116, 101, 114], 93),
  ([107, 76], 93),
  ([107, 108], 93),
  ([107, 105, 108, 111, 108, 105, 116, 101, 114, 115], 93),
  ([107, 105, 108, 111, 108, 105, 116, 114, 101], 93),
  ([107, 105, 108, 111, 108, 105, 116, 114, 101, 115], 93),
  ([109, 101, 103, 97, 108, 105, 116, 101, 114], 94),
  ([77, 76], 94),
  ([77, 108], 94),
  ([109, 101, 103, 97, 108, 105, 116, 101, 114, 115], 94),
  ([109, 101, 103, 97, 108, 105, 116, 114, 101], 94),
  ([109, 101, 103, 97, 108, 105, 116, 114, 101, 115], 94),
  ([103, 105, 103, 97, 108, 105, 116, 101, 114], 95),
  ([71, 76], 95),
  ([71, 108], 95),
  ([103, 105, 103, 97, 108, 105, 116, 101, 114, 115], 95),
  ([103, 105, 103, 97, 108, 105, 116, 114, 101], 95),
  ([103, 105, 103, 97, 108, 105, 116, 114, 101, 115], 95),
  ([99, 117, 98, 105, 99, 95, 99, 101, 110, 116, 105, 109, 101, 116, 101, 114], 96),
  ([99, 99], 96),
  ([99, 117, 98, 105, 99, 95, 99, 101, 110, 116, 105, 109, 101, 116, 101, 114, 115], 96),
  ([115, 116, 101, 114, 101], 97),
  ([115, 116, 101, 114, 101, 115], 97),
  ([103, 114, 111, 115, 115, 95, 114, 101, 103, 105, 115, 116, 101, 114, 95, 116, 111, 110], 98),
  ([71, 82, 84], 98),
  ([103, 114, 111, 115, 115, 95, 114, 101, 103, 105, 115, 116, 101, 114, 95, 116, 111, 110, 115], 98),
  ([114, 101, 103, 105, 115, 116, 101, 114, 95, 116, 111, 110], 98),
  ([114, 101, 103, 105, 115, 116, 101, 114, 95, 116, 111, 110, 115], 98),
  ([97, 99, 114, 101, 95, 102, 111, 111, 116], 99),
  ([97, 99, 114, 101, 95, 102, 101, 101, 116], 99),
  ([98, 111, 97, 114, 100, 95, 102, 111, 111, 116], 100),
  ([70, 66, 77], 100),
  ([98, 111, 97, 114, 100, 95, 102, 101, 101, 116], 100),
  ([85, 83, 95, 98, 117, 115, 104, 101, 108], 101),
  ([98, 117], 101),
  ([85, 83, 95, 100, 114, 121, 95, 103, 97, 108, 108, 111, 110], 102),
  ([85, 83, 95, 108, 105, 113, 117, 105, 100, 95, 103, 97, 108, 108, 111, 110], 103),
  ([103, 97, 108, 108, 111, 110], 103),
  ([103, 97, 108, 108, 111, 110, 115], 103),
  ([108, 105, 113, 117, 105, 100, 95, 103, 97, 108, 108, 111, 110], 103),
  ([108, 105, 113, 117, 105, 100, 95, 103, 97, 108, 108, 111, 110, 115], 103),
  ([85, 83, 95, 108, 105, 113, 117, 105, 100, 95, 103, 97, 108, 108, 111, 110, 115], 103),
  ([85, 83, 95, 100, 114, 121, 95, 113, 117, 97, 114, 116], 104),
  ([100, 114, 121, 95, 113, 117, 97, 114, 116], 104),
  ([100, 114, 121, 95, 113, 117, 97, 114, 116, 115], 104),
  ([85, 83, 95, 100, 114, 121, 95, 113, 117, 97, 114, 116, 115], 104),
  ([85, 83, 95, 100, 114, 121, 95, 112, 105, 110, 116], 105),
  ([100, 114, 121, 95, 112, 105, 110, 116], 105),
  ([100, 114, 121, 95, 112, 105, 110, 116, 115], 105),
  ([85, 83, 95, 100, 114, 121, 95, 112, 105, 110, 116, 115], 105),
  ([85, 83, 95, 108, 105, 113, 117, 105, 100, 95, 113, 117, 97, 114, 116], 106),
  ([113, 117, 97, 114, 116], 106),
  ([113, 117, 97, 114, 116, 115], 106),
  ([108, 105, 113, 117, 105, 100, 95, 113, 117, 97, 114, 116], 106),
  ([108, 105, 113, 117, 105, 100, 95, 113, 117, 97, 114, 116, 115], 106),
  ([85, 83, 95, 108, 105, 113, 117, 105, 100, 95, 113, 117, 97, 114, 116, 115], 106),
  ([85, 83, 95, 108, 105, 113, 117, 105, 100, 95, 112, 105, 110, 116], 107),
  ([112, 116], 107),
  ([112, 105, 110, 116], 107),
  ([112, 105, 110, 116, 115], 107),
  ([108, 105, 113, 117, 105, 100, 95, 112, 105, 110, 116], 107),
  ([108, 105, 113, 117, 105, 100, 95, 112, 105, 110, 116, 115], 107),
  ([85, 83, 95, 108, 105, 113, 117, 105, 100, 95, 112, 105, 110, 116, 115], 107),
  ([99, 117, 112], 108),
  ([99, 117, 112, 115], 108),
  ([85, 83, 95, 108, 105, 113, 117, 105, 100, 95, 99, 117, 112], 108),
  ([85, 83, 95, 108, 105, 113, 117, 105, 100, 95, 99, 117, 112, 115], 108),
  ([85, 83, 95, 108, 105, 113, 117, 105, 100, 95, 103, 105, 108, 108], 109),
  ([103, 105, 108, 108], 109),
  ([103, 105, 108, 108, 115], 109),
  ([85, 83, 95, 108, 105, 113, 117, 105, 100, 95, 103, 105, 108, 108, 115], 109),
  ([85, 83, 95, 102, 108, 117, 105, 100, 95, 111, 117, 110, 99, 101], 110),
  ([102, 108, 95, 111, 122], 110),
  ([102, 108, 117, 105, 100, 95, 111, 117, 110, 99, 101], 110),
  ([102, 108, 117, 105, 100, 95, 111, 117, 110, 99, 101, 115], 110),
  ([85, 83, 95, 102, 108, 117, 105, 100, 95, 111, 117, 110, 99, 101, 115], 110),
  ([85, 83, 95, 108, 105, 113, 117, 105, 100, 95, 111, 117, 110, 99, 101], 110),
  ([85, 83, 95, 108, 105, 113, 117, 105, 100, 95, 111, 117, 110, 99, 101, 115], 110),
  ([73, 109, 112, 101, 114, 105, 97, 108, 95, 98, 117, 115, 104, 101, 108], 111),
  ([85, 75, 95, 108, 105, 113, 117, 105, 100, 95, 103, 97, 108, 108, 111, 110], 112),
  ([85, 75, 95, 108, 105, 113, 117, 105, 100, 95, 103, 97, 108, 108, 111, 110, 115], 112),
  ([67, 97, 110, 97, 100, 105, 97, 110, 95, 108, 105, 113, 117, 105, 100, 95, 103, 97, 108, 108, 111, 110], 112),
  ([67, 97, 110, 97, 100, 105, 97, 110, 95, 108, 105, 113, 117, 105, 100, 95, 103, 97, 108, 108, 111, 110, 115], 112),
  ([85, 75, 95, 108, 105, 113, 117, 105, 100, 95, 113, 117, 97, 114, 116], 113),
  ([85, 75, 95, 108, 105, 113, 117, 105, 100, 95, 113, 117, 97, 114, 116, 115], 113),
  ([85, 75, 95, 108, 105, 113, 117, 105, 100, 95, 112, 105, 110, 116], 114),
  ([85, 75, 95, 108, 105, 113, 117, 105, 100, 95, 112, 105, 110, 116, 115], 114),
  ([85, 75, 95, 108, 105, 113, 117, 105, 100, 95, 99, 117, 112], 115),
  ([85, 75, 95, 108, 105, 113, 117, 105, 100, 95, 99, 117, 112, 115], 115),
  ([85, 75, 95, 108, 105, 113, 117, 105, 100, 95, 103, 105, 108, 108], 116),
  ([85, 75, 95, 108, 105, 113, 117, 105, 100, 95, 103, 105, 108, 108, 115], 116),
  ([85, 75, 95, 102, 108, 117, 105, 100, 95, 111, 117, 110, 99, 101], 117),
  ([85, 75, 95, 102, 108, 117, 105, 100, 95, 111, 117, 110, 99, 101, 115], 117),
  ([85, 75, 95, 108, 105, 113, 117, 105, 100, 95, 111, 117, 110, 99, 101], 117),
  ([85, 75, 95, 108, 105, 113, 117, 105, 100, 95, 111, 117, 110, 99, 101, 115], 117),
  ([98, 97, 114, 114, 101, 108], 118),
  ([98, 98, 108], 118),
  ([116, 97, 98, 108, 101, 115, 112, 111, 111, 110], 119),
  ([116, 98, 115, 112], 119),
  ([84, 98, 115, 112], 119),
  ([84, 98, 108, 115, 112], 119),
  ([84, 98, 108], 119),
  ([116, 98, 108, 115, 112], 119),
  ([116, 98, 115], 119),
  ([116, 97, 98, 108, 101, 115, 112, 111, 111, 110, 115], 119),
  ([116, 101, 97, 115, 112, 111, 111, 110], 120),
  ([116, 115, 112], 120),
  ([116, 101, 97, 115, 112, 111, 111, 110, 115], 120),
  ([112, 101, 99, 107], 121),
  ([112, 107], 121),
  ([112, 101, 99, 107, 115], 121),
  ([102, 108, 117, 105, 100, 95, 100, 114, 97, 109], 122),
  ([102, 108, 100, 114], 122),
  ([102, 108, 117, 105, 100, 95, 100, 114, 97, 109, 115], 122),
  ([102, 108, 117, 105, 100, 114, 97, 109], 122),
  ([102, 108, 117, 105, 100, 114, 97, 109, 115], 122),
  ([102, 105, 114, 107, 105, 110], 123),
  ([109, 111, 108, 97, 114], 124),
  ([77], 124),
  ([77, 111, 108, 97, 114], 124),
  ([109, 105, 108, 108, 105, 109, 111, 108, 97, 114], 125),
  ([109, 77], 125),
  ([109, 105, 99, 114, 111, 109, 111, 108, 97, 114], 126),
  ([117, 77], 126),
  ([112, 101, 114, 99, 101, 110, 116], 127),
  ([37], 127),
  ([99, 111, 117, 110, 116], 128),
  ([99, 116], 128),
  ([99, 116, 115], 128),
  ([99, 111, 117, 110, 116, 115], 128),
  ([108, 101, 97, 115, 116, 95, 115, 105, 103, 110, 105, 102, 105, 99, 97, 110, 116, 95, 98, 105, 116], 129),
  ([108, 115, 98], 129),
  ([108, 115, 98, 115], 129),
  ([107, 105, 108, 111, 103, 114, 97, 109], 130),
  ([107, 103], 130),
  ([107, 105, 108, 111, 103, 114, 97, 109, 115], 130),
  ([103, 114, 97, 109], 131),
  ([103], 131),
  ([103, 114, 97, 109, 115], 131),
  ([109, 105, 108, 108, 105, 103, 114, 97, 109], 132),
  ([109, 103], 132),
  ([109, 105, 108, 108, 105, 103, 114, 97, 109, 115], 132),
  ([111, 117, 110, 99, 101], 133),
  ([111, 122], 133),
  ([111, 117, 110, 99, 101, 115], 133),
  ([97, 118, 111, 105, 114, 100, 117, 112, 111, 105, 115, 95, 111, 117, 110, 99, 101], 133),
  ([97, 118, 111, 105, 114, 100, 117, 112, 111, 105, 115, 95, 111, 117, 110, 99, 101, 115], 133),
  ([112, 111, 117, 110, 100], 134),
  ([108, 98], 134),
  ([112, 111, 117, 110, 100, 115], 134),
  ([97, 118, 111, 105, 114, 100, 117, 112, 111, 105, 115, 95, 112, 111, 117, 110, 100], 134),
  ([97, 118, 111, 105, 114, 100, 117, 112, 111, 105, 115, 95, 112, 111, 117, 110, 100, 115], 134),
  ([115, 116, 111, 110, 101], 135),
  ([115, 116], 135),
  ([99, 97, 114, 97, 116], 136),
  ([99, 97, 114, 97, 116, 115], 136),
  ([103, 114, 97, 105, 110], 137),
  ([103, 114], 137),
  ([103, 114, 97, 105, 110, 115], 137),
  ([108, 111, 110, 103, 95, 104, 117, 110, 100, 114, 101, 100, 119, 101, 105, 103, 104, 116], 138),
  ([108, 111, 110, 103, 95, 104, 117, 110, 100, 114, 101, 100, 119, 101, 105, 103, 104, 116, 115], 138),
  ([115, 104, 111, 114, 116, 95, 104, 117, 110, 100, 114, 101, 100, 119, 101, 105, 103, 104, 116], 139),
  ([115, 104, 111, 114, 116, 95, 104, 117, 110, 100, 114, 101, 100, 119, 101, 105, 103, 104, 116, 115], 139),
  ([116, 111, 110, 110, 101], 140),
  ([116], 140),
  ([116, 111, 110, 110, 101, 115], 140),
  ([112, 101, 110, 110, 121, 119, 101, 105, 103, 104, 116], 141),
  ([100, 119, 116], 141),
  ([112, 101, 110, 110, 121, 119, 101, 105, 103, 104, 116, 115], 141),
  ([115, 108, 117, 103], 142),
  ([115, 108, 117, 103, 115], 142),
  ([116, 114, 111, 121, 95, 111, 117, 110, 99, 101], 143),
  ([116, 111, 122], 143),
  ([97, 112, 111, 117, 110, 99, 101], 143),
  ([97, 112, 111, 117, 110, 99, 101, 115], 143),
  ([97, 112, 111, 116, 104, 101, 99, 97, 114, 121, 95, 111, 117, 110, 99, 101], 143),
  ([97, 112, 111, 116, 104, 101, 99, 97, 114, 121, 95, 111, 117, 110, 99, 101, 115], 143),
  ([116, 114, 111, 121, 95, 111, 117, 110, 99, 101, 115], 143),
  ([116, 114, 111, 121, 95, 112, 111, 117, 110, 100], 144),
  ([116, 108, 98], 144),
  ([116, 114, 111, 121, 95, 112, 111, 117, 110, 100, 115], 144),
  ([97, 112, 112, 111, 117, 110, 100], 144),
  ([97, 112, 112, 111, 117, 110, 100, 115], 144),
  ([97, 112, 111, 116, 104, 101, 99, 97, 114, 121, 95, 112, 111, 117, 110, 100], 144),
  ([97, 112, 111, 116, 104, 101, 99, 97, 114, 121, 95, 112, 111, 117, 110, 100, 115], 144),
  ([97, 116, 111, 109, 105, 99, 95, 109, 97, 115, 115, 95, 117, 110, 105, 116], 145),
  ([117], 145),
  ([97, 109, 117], 145),
  ([68, 97], 145),
  ([100, 97, 108, 116, 111, 110], 145),
  ([115, 99, 114, 117, 112, 108, 101], 146),
  ([115, 99, 114, 117, 112, 108, 101, 115], 146),
  ([100, 114, 97, 109], 147),
  ([100, 114], 147),
  ([100, 114, 97, 109, 115], 147),
  ([100, 114, 97, 99, 104, 109], 148),
  ([100, 114, 97, 99, 104, 109, 115], 148),
  ([97, 112, 100, 114, 97, 109], 148),
  ([97, 112, 100, 114, 97, 109, 115], 148),
  ([98, 97, 103], 149),
  ([98, 97, 103, 115], 149),
  ([115, 104, 111, 114, 116, 95, 116, 111, 110], 150),
  ([115, 104, 111, 114, 116, 95, 116, 111, 110, 115], 150),
  ([108, 111, 110, 103, 95, 116, 111, 110], 151),
  ([108, 111, 110, 103, 95, 116, 111, 110, 115], 151),
  ([100, 101, 110, 105, 101, 114], 152),
  ([100, 101, 110, 105, 101, 114, 115], 152),
  ([116, 101, 120], 153),
  ([116, 101, 120, 115], 153),
  ([100, 116, 101, 120], 154),
  ([100, 116, 101, 120, 115], 154),
  ([110, 101, 119, 116, 111, 110], 155),
  ([78], 155),
  ([110, 101, 119, 116, 111, 110, 115], 155),
  ([107, 105, 108, 111, 110, 101, 119, 116, 111, 110], 156),
  ([107, 78], 156),
  ([107, 105, 108, 111, 110, 101, 119, 116, 111, 110, 115], 156),
  ([100, 121, 110, 101], 157),
  ([100, 121, 110], 157),
  ([100, 121, 110, 101, 115], 157),
  ([112, 111, 110, 100], 158),
  ([112], 158),
  ([112, 111, 110, 100, 115], 158),
  ([107, 105, 108, 111, 103, 114, 97, 109, 95, 102, 111, 114, 99, 101], 159),
  ([107, 103, 102], 159),
  ([102, 111, 114, 99, 101, 95, 107, 105, 108, 111, 103, 114, 97, 109], 159),
  ([111, 117, 110, 99, 101, 95, 102, 111, 114, 99, 101], 160),
  ([111, 122, 102], 160),
  ([102, 111, 114, 99, 101, 95, 111, 117, 110, 99, 101], 160),
  ([112, 111, 117, 110, 100, 95, 102, 111, 114, 99, 101], 161),
  ([108, 98, 102], 161),
  ([102, 111, 114, 99, 101, 95, 112, 111, 117, 110, 100], 161),
  ([112, 111, 117, 110, 100, 97, 108], 162),
  ([112, 100, 108], 162),
  ([112, 111, 117, 110, 100, 97, 108, 115], 162),
  ([103, 114, 97, 109, 95, 102, 111, 114, 99, 101], 163),
  ([103, 102], 163),
  ([102, 111, 114, 99, 101, 95, 103, 114, 97, 109], 163),
  ([116, 111, 110, 95, 102, 111, 114, 99, 101], 164),
  ([102, 111, 114, 99, 101, 95, 116, 111, 110], 164),
  ([107, 105, 112], 165),
  ([106, 111, 117, 108, 101], 166),
  ([74], 166),
  ([106, 111, 117, 108, 101, 115], 166),
  ([101, 114, 103], 167),
  ([66, 114, 105, 116, 105, 115, 104, 95, 116, 104, 101, 114, 109, 97, 108, 95, 117, 110, 105, 116], 168),
  ([66, 84, 85], 168),
  ([101, 108, 101, 99, 116, 114, 111, 110, 95, 118, 111, 108, 116], 169),
  ([101, 86], 169),
  ([101, 108, 101, 99, 116, 114, 111, 110, 95, 118, 111, 108, 116, 115], 169),
  ([109, 101, 86], 170),
  ([107, 101, 86], 171),
  ([77, 101, 86], 172),
  ([71, 101, 86], 173),
  ([69, 67, 95, 116, 104, 101, 114, 109], 174),
  ([116, 104, 109], 174),
  ([116, 104, 101, 114, 109, 111, 99, 104, 101, 109, 105, 99, 97, 108, 95, 99, 97, 108, 111, 114, 105, 101], 175),
  ([99, 97, 108], 175),
  ([99, 97, 108, 111, 114, 105, 101], 175),
  ([99, 97, 108, 111, 114, 105, 101, 115], 175),
  ([116, 104, 101, 114, 109, 111, 99, 104, 101, 109, 105, 99, 97, 108, 95, 99, 97, 108, 111, 114, 105, 101, 115], 175),
  ([105, 110, 116, 101, 114, 110, 97, 116, 105, 111, 110, 97, 108, 95, 115, 116, 101, 97, 109, 95, 116, 97, 98, 108, 101, 95, 99, 97, 108, 111, 114, 105, 101], 176),
  ([99, 97, 108, 95, 73, 84], 176),
  ([105, 110, 116, 101, 114, 110, 97, 116, 105, 111, 110, 97, 108, 95, 115, 116, 101, 97, 109, 95, 116, 97, 98, 108, 101, 95, 99, 97, 108, 111, 114, 105, 101, 115], 176),
  ([116, 111, 110, 95, 84, 78, 84], 177),
  ([116, 84, 78, 84], 177),
  ([85, 83, 95, 116, 104, 101, 114, 109], 178),
  ([85, 83, 95, 116, 104, 101, 114, 109, 115], 178),
  ([119, 97, 116, 116, 95, 104, 111, 117, 114], 179),
  ([87, 104], 179),
  ([119, 97, 116, 116, 104, 111, 117, 114], 179),
  ([119, 97, 116, 116, 104, 111, 117, 114, 115], 179),
  ([119, 97, 116, 116, 95, 104, 111, 117, 114, 115], 179),
  ([107, 105, 108, 111, 119, 97, 116, 116, 95, 104, 111, 117, 114], 180),
  ([107, 87, 104], 180),
  ([107, 105, 108, 111, 119, 97, 116, 116, 104, 111, 117, 114], 180),
  ([107, 105, 108, 111, 119, 97, 116, 116, 104, 111, 117, 114, 115], 180),
  ([107, 105, 108, 111, 119, 97, 116, 116, 95, 104, 111, 117, 114, 115], 180),
  ([109, 101, 103, 97, 119, 97, 116, 116, 95, 104, 111, 117, 114], 181),
  ([77, 87, 104], 181),
  ([109, 101, 103, 97, 119, 97, 116, 116, 104, 111, 117, 114], 181),
  ([109, 101, 103, 97, 119, 97, 116, 116, 104, 111, 117, 114, 115], 181),
  ([109, 101, 103, 97, 119, 97, 116, 116, 95, 104, 111, 117, 114, 115], 181),
  ([103, 105, 103, 97, 119, 97, 116, 116, 95, 104, 111, 117, 114], 182),
  ([71, 87, 104], 182),
  ([103, 105, 103, 97, 119, 97, 116, 116, 104, 111, 117, 114], 182),
  ([103, 105, 103, 97, 119, 97, 116, 116, 104, 111, 117, 114, 115], 182),
  ([103, 105, 103, 97, 119, 97, 116, 116, 95, 104, 111, 117, 114, 115], 182),
  ([104, 97, 114, 116, 114, 101, 101], 183),
  ([69, 95, 104], 183),
  ([104, 97, 114, 116, 114, 101, 101, 115], 183),
  ([104, 97, 114, 116, 114, 101, 101, 95, 101, 110, 101, 114, 103, 121], 183),
  ([72, 97, 114, 116, 114, 101, 101, 95, 101, 110, 101, 114, 103, 121], 183),
  ([115, 112, 101, 101, 100, 95, 111, 102, 95, 108, 105, 103, 104, 116], 184),
  ([99], 184),
  ([110, 97, 117, 116, 105, 99, 97, 108, 95, 109, 105, 108, 101, 115, 95, 112, 101, 114, 95, 104, 111, 117, 114], 185),
  ([107, 116], 185),
  ([107, 110, 111, 116], 185),
  ([107, 110, 111, 116, 115], 185),
  ([107, 110, 111, 116, 95, 105, 110, 116, 101, 114, 110, 97, 116, 105, 111, 110, 97, 108], 185),
  ([105, 110, 116, 101, 114, 110, 97, 116, 105, 111, 110, 97, 108, 95, 107, 110, 111, 116], 185),
  ([97, 109, 112, 101, 114, 101], 186),
  ([65], 186),
  ([97, 109, 112], 186),
  ([97, 109, 112, 115], 186),
  ([97, 109, 112, 101, 114, 101, 115], 186),
  ([109, 105, 108, 108, 105, 97, 109, 112, 101, 114, 101], 187),
  ([109, 65], 187),
  ([109, 105, 108, 108, 105, 97, 109, 112], 187),
  ([109, 105, 108, 108, 105, 97, 109, 112, 115], 187),
  ([109, 105, 108, 108, 105, 97, 109, 112, 101, 114, 101, 115], 187),
  ([109, 105, 99, 114, 111, 97, 109, 112, 101, 114, 101], 188),
  ([117, 65], 188),
  ([109, 105, 99, 114, 111, 97, 109, 112], 188),
  ([109, 105, 99, 114, 111, 97, 109, 112, 115], 188),
  ([109, 105, 99, 114, 111, 97, 109, 112, 101, 114, 101, 115], 188),
  ([110, 97, 110, 111, 97, 109, 112, 101, 114, 101], 189),
  ([110, 65], 189),
  ([110, 97, 110, 111, 97, 109, 112], 189),
  ([110, 97, 110, 111, 97, 109, 112, 115], 189),
  ([110, 97, 110, 111, 97, 109, 112, 101, 114, 101, 115], 189),
  ([112, 105, 99, 111, 97, 109, 112, 101, 114, 101], 190),
  ([112, 65], 190),
  ([112, 105, 99, 111, 97, 109, 112], 190),
  ([112, 105, 99, 111, 97, 109, 112, 115], 190),
  ([112, 105, 99, 111, 97, 109, 112, 101, 114, 101, 115], 190),
  ([97, 98, 97, 109, 112, 101, 114, 101], 191),
  ([97, 65], 191),
  ([97, 98, 97, 109, 112, 101, 114, 101, 115], 191),
  ([98, 105, 111, 116], 191),
  ([98, 105, 111, 116, 115], 191),
  ([115, 116, 97, 116, 99, 111, 117, 108, 111, 109, 98], 192),
  ([101, 115, 117], 192),
  ([115, 116, 97, 116, 99, 111, 117, 108, 111, 109, 98, 115], 192),
  ([115, 116, 97, 116, 67], 192),
  ([102, 114, 97, 110, 107, 108, 105, 110], 192),
  ([102, 114, 97, 110, 107, 108, 105, 110, 115], 192),
  ([70, 114], 192),
  ([115, 116, 97, 116, 97, 109, 112, 101, 114, 101], 193),
  ([40, 101, 115, 117, 47, 115, 41], 193),
  ([115, 116, 97, 116, 97, 109, 112, 101, 114, 101, 115], 193),
  ([97, 109, 112, 101, 114, 101, 95, 116, 117, 114, 110], 194),
  ([103, 105, 108, 98, 101, 114, 116], 195),
  ([71, 105], 195),
  ([99, 111, 117, 108, 111, 109, 98], 196),
  ([67], 196),
  ([109, 105, 108, 108, 105, 99, 111, 117, 108, 111, 109, 98], 197),
  ([109, 67], 197),
  ([109, 105, 99, 114, 111, 99, 111, 117, 108, 111, 109, 98], 198),
  ([117, 67], 198),
  ([118, 111, 108, 116], 199),
  ([86], 199),
  ([118, 111, 108, 116, 115], 199),
  ([107, 105, 108, 111, 118, 111, 108, 116], 200),
  ([107, 86], 200),
  ([107, 105, 108, 111, 118, 111, 108, 116, 115], 200),
  ([109, 105, 108, 108, 105, 118, 111, 108, 116], 201),
  ([109, 86], 201),
  ([109, 105, 108, 108, 105, 118, 111, 108, 116, 115], 201),
  ([109, 105, 99, 114, 111, 118, 111, 108, 116], 202),
  ([117, 86], 202),
  ([109, 105, 99, 114, 111, 118, 111, 108, 116, 115], 202),
  ([102, 97, 114, 97, 100], 203),
  ([70], 203),
  ([102, 97, 114, 97, 100, 115], 203),
  ([109, 105, 108, 108, 105, 102, 97, 114, 97, 100], 204),
  ([109, 70], 204),
  ([109, 105, 99, 114, 111, 102, 97, 114, 97, 100], 205),
  ([117, 70], 205),
  ([110, 97, 110, 111, 102, 97, 114, 97, 100], 206),
  ([110, 70], 206),
  ([112, 105, 99, 111, 102, 97, 114, 97, 100], 207),
  ([112, 70], 207),
  ([102, 101, 109, 116, 111, 102, 97, 114, 97, 100], 208),
  ([102, 70], 208),
  ([111, 104, 109], 209),
  ([111, 104, 109, 115], 209),
  ([79, 104, 109], 209),
  ([107, 105, 108, 111, 111, 104, 109], 210),
  ([107, 79, 104, 109], 210),
  ([107, 111, 104, 109], 210),
  ([107, 105, 108, 111, 111, 104, 109, 115], 210),
  ([109, 101, 103, 97, 111, 104, 109], 211),
  ([77, 79, 104, 109], 211),
  ([77, 111, 104, 109], 211),
  ([109, 101, 103, 97, 111, 104, 109, 115], 211),
  ([115, 105, 101, 109, 101, 110, 115], 212),
  ([83], 212),
  ([109, 105, 108, 108, 105, 115, 105, 101, 109, 101, 110, 115], 213),
  ([109, 83], 213),
  ([109, 105, 99, 114, 111, 115, 105, 101, 109, 101, 110, 115], 214),
  ([117, 83], 214),
  ([110, 97, 110, 111, 115, 105, 101, 109, 101, 110, 115], 215),
  ([110, 83], 215),
  ([112, 105, 99, 111, 115, 105, 101, 109, 101, 110, 115], 216),
  ([112, 83], 216),
  ([119, 101, 98, 101, 114], 217),
  ([87, 98], 217),
  ([119, 101, 98, 101, 114, 115], 217),
  ([116, 101, 115, 108, 97], 218),
  ([84], 218),
  ([116, 101, 115, 108, 97, 115], 218),
  ([104, 101, 110, 114, 121], 219),
  ([72], 219),
  ([97, 98, 102, 97, 114, 97, 100], 220),
  ([97, 98, 102, 97, 114, 97, 100, 115], 220),
  ([97, 98, 104, 101, 110, 114, 121], 221),
  ([97, 98, 109, 104, 111], 222),
  ([97, 98, 111, 104, 109], 223),
  ([97, 98, 118, 111, 108, 116], 224),
  ([97, 98, 118, 111, 108, 116, 115], 224),
  ([101, 108, 101, 109, 101, 110, 116, 97, 114, 121, 95, 99, 104, 97, 114, 103, 101], 225),
  ([101], 225),
  ([99, 104, 101, 109, 105, 99, 97, 108, 95, 102, 97, 114, 97, 100, 97, 121], 226),
  ([112, 104, 121, 115, 105, 99, 97, 108, 95, 102, 97, 114, 97, 100, 97, 121], 227),
  ([102, 97, 114, 97, 100, 97, 121], 228),
  ([102, 97, 114, 97, 100, 97, 121, 115], 228),
  ([103, 97, 109, 109, 97], 229),
  ([103, 97, 117, 115, 115], 230),
  ([71], 230),
  ([109, 97, 120, 119, 101, 108, 108], 231),
  ([77, 120], 231),
  ([109, 97, 120, 119, 101, 108, 108, 115], 231),
  ([111, 101, 114, 115, 116, 101, 100], 232),
  ([79, 101], 232),
  ([97, 108, 105, 97, 115, 101, 115], 232),
  ([115, 116, 97, 116, 102, 97, 114, 97, 100], 233),
  ([115, 116, 70], 233),
  ([115, 116, 97, 116, 102, 97, 114, 97, 100, 115], 233),
  ([115, 116, 97, 116, 70], 233),
  ([115, 116, 97, 116, 104, 101, 110, 114, 121], 234),
  ([115, 116, 72], 234),
  ([115, 116, 97, 116, 72], 234),
  ([115, 116, 97, 116, 109, 104, 111], 235),
  ([115, 116, 83], 235),
  ([115, 116, 97, 116, 111, 104, 109], 236),
  ([115, 116, 97, 116, 111, 104, 109, 115], 236),
  ([115, 116, 97, 116, 118, 111, 108, 116], 237),
  ([115, 116, 86], 237),
  ([115, 116, 97, 116, 118, 111, 108, 116, 115], 237),
  ([115, 116, 97, 116, 86], 237),
  ([117, 110, 105, 116, 95, 112, 111, 108, 101], 238),
  ([109, 97, 103, 110, 101, 116, 105, 99, 95, 99, 111, 110, 115, 116, 97, 110, 116], 239),
  ([109, 117, 95, 48], 239),
  ([118, 97, 99, 117, 117, 109, 95, 112, 101, 114, 109, 101, 97, 98, 105, 108, 105, 116, 121], 239),
  ([101, 108, 101, 99, 116, 114, 105, 99, 95, 99, 111, 110, 115, 116, 97, 110, 116], 240),
  ([101, 112, 115, 105, 108, 111, 110, 95, 48], 240),
  ([118, 97, 99, 117, 117, 109, 95, 112, 101, 114, 109, 105, 116, 116, 105, 118, 105, 116, 121], 240),
  ([99, 104, 97, 114, 97, 99, 116, 101, 114, 105, 115, 116, 105, 99, 95, 105, 109, 112, 101, 100, 97, 110, 99, 101, 95, 111, 102, 95, 118, 97, 99, 117, 117, 109], 241),
  ([90, 95, 48], 241),
  ([105, 109, 112, 101, 100, 101, 110, 99, 101, 95, 111, 102, 95, 102, 114, 101, 101, 95, 115, 112, 97, 99, 101], 241),
  ([99, 97, 110, 100, 101, 108, 97], 242),
  ([99, 100], 242),
  ([99, 97, 110, 100, 108, 101], 242),
  ([99, 97, 110, 100, 108, 101, 115], 242),
  ([99, 97, 110, 100, 101, 108, 97, 115], 242),
  ([104, 101, 114, 116, 122], 243),
  ([72, 122], 243),
  ([107, 105, 108, 111, 104, 101, 114, 116, 122], 244),
  ([107, 72, 122], 244),
  ([109, 101, 103, 97, 104, 101, 114, 116, 122], 245),
  ([77, 72, 122], 245),
  ([103, 105, 103, 97, 104, 101, 114, 116, 122], 246),
  ([71, 72, 122], 246),
  ([114, 101, 118, 111, 108, 117, 116, 105, 111, 110, 115, 95, 112, 101, 114, 95, 109, 105, 110, 117, 116, 101], 247),
  ([114, 112, 109], 247),
  ([99, 111, 117, 110, 116, 115, 95, 112, 101, 114, 95, 115, 101, 99, 111, 110, 100], 248),
  ([75, 101, 108, 118, 105, 110], 249),
  ([75], 249),
  ([100, 101, 103, 75], 249),
  ([107, 101, 108, 118, 105, 110], 249),
  ([121, 111, 116, 116, 97, 107, 101, 108, 118, 105, 110], 250),
  ([89, 75], 250),
  ([122, 101, 116, 116, 97, 107, 101, 108, 118, 105, 110], 251),
  ([90, 75], 251),
  ([101, 120, 97, 107, 101, 108, 118, 105, 110], 252),
  ([69, 75], 252),
  ([112, 101, 116, 97, 107, 101, 108, 118, 105, 110], 253),
  ([80, 75], 253),
  ([116, 101, 114, 97, 107, 101, 108, 118, 105, 110], 254),
  ([84, 75], 254),
  ([103, 105, 103, 97, 107, 101, 108, 118, 105, 110], 255),
  ([71, 75], 255),
  ([109, 101, 103, 97, 107, 101, 108, 118, 105, 110], 256),
  ([77, 75], 256),
  ([107, 105, 108, 111, 107, 101, 108, 118, 105, 110], 257),
  ([107, 75], 257),
  ([104, 101, 99, 116, 111, 107, 101, 108, 118, 105, 110], 258),
  ([104, 75], 258),
  ([100, 101, 107, 97, 107, 101, 108, 118, 105, 110], 259),
  ([100, 97, 75], 259),
  ([100, 101, 99, 105, 107, 101, 108, 118, 105, 110], 260),
  ([100, 75], 260),
  ([99, 101, 110, 116, 105, 107, 101, 108, 118, 105, 110], 261),
  ([99, 75], 261),
  ([109, 105, 108, 108, 105, 107, 101, 108, 118, 105, 110], 262),
  ([109, 75], 262),
  ([109, 105, 99, 114, 111, 107, 101, 108, 118, 105, 110], 263),
  ([117, 75], 263),
  ([110, 97, 110, 111, 107, 101, 108, 118, 105, 110], 264),
  ([110, 75], 264),
  ([112, 105, 99, 111, 107, 101, 108, 118, 105, 110], 265),
  ([112, 75], 265),
  ([102, 101, 109, 116, 111, 107, 101, 108, 118, 105, 110], 266),
  ([102, 75], 266),
  ([97, 116, 116, 111, 107, 101, 108, 118, 105, 110], 267),
  ([97, 75], 267),
  ([122, 101, 112, 116, 111, 107, 101, 108, 118, 105, 110], 268),
  ([122, 75], 268),
  ([121, 111, 99, 116, 111, 107, 101, 108, 118, 105, 110], 269),
  ([121, 75], 269),
  ([82, 97, 110, 107, 105, 110, 101], 270),
  ([100, 101, 103, 82], 270),
  ([114, 97, 110, 107, 105, 110, 101], 270),
  ([67, 101, 108, 115, 105, 117, 115], 271),
  ([100, 101, 103, 67], 271),
  ([99, 101, 108, 115, 105, 117, 115], 271),
  ([70, 97, 104, 114, 101, 110, 104, 101, 105, 116], 272),
  ([100, 101, 103, 70], 272),
  ([102, 97, 104, 114, 101, 110, 104, 101, 105, 116], 272),
  ([119, 97, 116, 116], 273),
  ([87], 273),
  ([119, 97, 116, 116, 115], 273),
  ([118, 111, 108, 116, 95, 97, 109, 112, 101, 114, 101], 273),
  ([118, 111, 108, 116, 95, 97, 109, 112, 101, 114, 101, 115], 273),
  ([86, 65], 273),
  ([109, 105, 108, 108, 105, 119, 97, 116, 116], 274),
  ([109, 87], 274),
  ([109, 105, 108, 108, 105, 119, 97, 116, 116, 115], 274),
  ([107, 105, 108, 111, 119, 97, 116, 116], 275),
  ([107, 87], 275),
  ([107, 105, 108, 111, 119, 97, 116, 116, 115], 275),
  ([109, 101, 103, 97, 119, 97, 116, 116], 276),
  ([77, 87], 276),
  ([109, 101, 103, 97, 119, 97, 116, 116, 115], 276),
  ([104, 111, 114, 115, 101, 112, 111, 119, 101, 114], 277),
  ([104, 112], 277),
  ([85, 75, 95, 104, 111, 114, 115, 101, 112, 111, 119, 101, 114], 277),
  ([66, 114, 105, 116, 105, 115, 104, 95, 104, 111, 114, 115, 101, 112, 111, 119, 101, 114], 277),
  ([98, 111, 105, 108, 101, 114, 95, 104, 111, 114, 115, 101, 112, 111, 119, 101, 114], 278),
  ([109, 101, 116, 114, 105, 99, 95, 104, 111, 114, 115, 101, 112, 111, 119, 101, 114], 279),
  ([101, 108, 101, 99, 116, 114, 105, 99, 95, 104, 111, 114, 115, 101, 112, 111, 119, 101, 114], 280),
  ([119, 97, 116, 101, 114, 95, 104, 111, 114, 115, 101, 112, 111, 119, 101, 114], 281),
  ([114, 101, 102, 114, 105, 103, 101, 114, 97, 116, 105, 111, 110, 95, 116, 111, 110], 282),
  ([116, 111, 110, 95, 111, 102, 95, 114, 101, 102, 114, 105, 103, 101, 114, 97, 116, 105, 111, 110], 282),
  ([82, 83, 73], 283),
  ([99, 108, 111], 284),
  ([99, 108, 111, 115], 284),
  ([82, 95, 118, 97, 108, 117, 101], 285),
  ([98, 105, 116], 286),
  ([98, 105, 116, 115], 286),
  ([98, 121, 116, 101], 287),
  ([66], 287),
  ([98, 121, 116, 101, 115], 287),
  ([111], 287),
  ([111, 99, 116, 101, 116], 287),
  ([111, 99, 116, 101, 116, 115], 287),
  ([107, 105, 108, 111, 98, 121, 116, 101], 288),
  ([107, 66], 288),
  ([107, 105, 108, 111, 98, 121, 116, 101, 115], 288),
  ([107, 105, 108, 111, 111, 99, 116, 101, 116], 288),
  ([107, 105, 108, 111, 111, 99, 116, 101, 116, 115], 288),
  ([109, 101, 103, 97, 98, 121, 116, 101], 289),
  ([77, 66], 289),
  ([109, 101, 103, 97, 98, 121, 116, 101, 115], 289),
  ([109, 101, 103, 97, 111, 99, 116, 101, 116], 289),
  ([109, 101, 103, 97, 111, 99, 116, 101, 116, 115], 289),
  ([103, 105, 103, 97, 98, 121, 116, 101], 290),
  ([71, 66], 290),
  ([103, 105, 103, 97, 98, 121, 116, 101, 115], 290),
  ([103, 105, 103, 97, 111, 99, 116, 101, 116], 290),
  ([103, 105, 103, 97, 111, 99, 116, 101, 116, 115], 290),
  ([116, 101, 114, 97, 98, 121, 116, 101], 291),
  ([84, 66], 291),
  ([116, 101, 114, 97, 98, 121, 116, 101, 115], 291),
  ([116, 101, 114, 97, 111, 99, 116, 101, 116], 291),
  ([116, 101, 114, 97, 111, 99, 116, 101, 116, 115], 291),
  ([112, 101, 116, 97, 98, 121, 116, 101], 292),
  ([80, 66], 292),
  ([112, 101, 116, 97, 98, 121, 116, 101, 115], 292),
  ([112, 101, 116, 97, 111, 99, 116, 101, 116], 292),
  ([112, 101, 116, 97, 111, 99, 116, 101, 116, 115], 292),
  ([101, 120, 97, 98, 121, 116, 101], 293),
  ([69, 66], 293),
  ([101, 120, 97, 98, 121, 116, 101, 115], 293),
  ([101, 120, 97, 111, 99, 116, 101, 116], 293),
  ([101, 120, 97, 111, 99, 116, 101, 116, 115], 293),
  ([122, 101, 116, 116, 97, 98, 121, 116, 101], 294),
  ([90, 66], 294),
  ([122, 101, 116, 116, 97, 98, 121, 116, 101, 115], 294),
  ([122, 101, 116, 116, 97, 111, 99, 116, 101, 116], 294),
  ([122, 101, 116, 116, 97, 111, 99, 116, 101, 116, 115], 294),
  ([121, 111, 116, 116, 97, 98, 121, 116, 101], 295),
  ([89, 66], 295),
  ([121, 111, 116, 116, 97, 98, 121, 116, 101, 115], 295),
  ([121, 111, 116, 116, 97, 111, 99, 116, 101, 116], 295),
  ([121, 111, 116, 116, 97, 111, 99, 116, 101, 116, 115], 295),
  ([98, 97, 117, 100], 296),
  ([66, 100], 296),
  ([107, 105, 98, 105, 98, 121, 116, 101], 297),
  ([75, 105, 66], 297),
  ([107, 105, 98, 105, 98, 121, 116, 101, 115], 297),
  ([107, 105, 98, 105, 111, 99, 116, 101, 116], 297),
  ([107, 105, 98, 105, 111, 99, 116, 101, 116, 115], 297),
  ([109, 101, 98, 105, 98, 121, 116, 101], 298),
  ([77, 105, 66], 298),
  ([109, 101, 98, 105, 98, 121, 116, 101, 115], 298),
  ([109, 101, 98, 105, 111, 99, 116, 101, 116], 298),
  ([109, 101, 98, 105, 111, 99, 116, 101, 116, 115], 298),
  ([103, 105, 98, 105, 98, 121, 116, 101], 299),
  ([71, 105, 66], 299),
  ([103, 105, 98, 105, 98, 121, 116, 101, 115], 299),
  ([103, 105, 98, 105, 111, 99, 116, 101, 116], 299),
  ([103, 105, 98, 105, 111, 99, 116, 101, 116, 115], 299),
  ([116, 101, 98, 105, 98, 121, 116, 101], 300),
  ([84, 105, 66], 300),
  ([116, 101, 98, 105, 98, 121, 116, 101, 115], 300),
  ([116, 101, 98, 105, 111, 99, 116, 101, 116], 300),
  ([116, 101, 98, 105, 111, 99, 116, 101, 116, 115], 300),
  ([112, 101, 98, 105, 98, 121, 116, 101], 301),
  ([80, 105, 66], 301),
  ([112, 101, 98, 105, 98, 121, 116, 101, 115], 301),
  ([112, 101, 98, 105, 111, 99, 116, 101, 116], 301),
  ([112, 101, 98, 105, 111, 99, 116, 101, 116, 115], 301),
  ([101, 120, 98, 105, 98, 121, 116, 101], 302),
  ([69, 105, 66], 302),
  ([101, 120, 98, 105, 98, 121, 116, 101, 115], 302),
  ([101, 120, 98, 105, 111, 99, 116, 101, 116], 302),
  ([101, 120, 98, 105, 111, 99, 116, 101, 116, 115], 302),
  ([122, 101, 98, 105, 98, 121, 116, 101], 303),
  ([90, 105, 66], 303),
  ([122, 101, 98, 105, 98, 121, 116, 101, 115], 303),
  ([122, 101, 98, 105, 111, 99, 116, 101, 116], 303),
  ([122, 101, 98, 105, 111, 99, 116, 101, 116, 115], 303),
  ([121, 111, 98, 105, 98, 121, 116, 101], 304),
  ([89, 105, 66], 304),
  ([121, 111, 98, 105, 98, 121, 116, 101, 115], 304),
  ([121, 111, 98, 105, 111, 99, 116, 101, 116], 304),
  ([121, 111, 98, 105, 111, 99, 116, 101, 116, 115], 304),
  ([99, 111, 110, 118, 101, 110, 116, 105, 111, 110, 97, 108, 95, 109, 101, 114, 99, 117, 114, 121], 305),
  ([109, 101, 114, 99, 117, 114, 121, 95, 54, 48, 70], 306),
  ([72, 50, 79], 307),
  ([119, 97, 116, 101, 114, 95, 52, 67], 308),
  ([119, 97, 116, 101, 114, 95, 54, 48, 70], 309),
  ([112, 97, 115, 99, 97, 108], 310),
  ([80, 97], 310),
  ([112, 97, 115, 99, 97, 108, 115], 310),
  ([104, 101, 99, 116, 111, 112, 97, 115, 99, 97, 108], 311),
  ([104, 80, 97], 311),
  ([107, 105, 108, 111, 112, 97, 115, 99, 97, 108], 312),
  ([107, 80, 97], 312),
  ([107, 105, 108, 111, 112, 97, 115, 99, 97, 108, 115], 312),
  ([109, 101, 103, 97, 112, 97, 115, 99, 97, 108], 313),
  ([77, 80, 97], 313),
  ([109, 101, 103, 97, 112, 97, 115, 99, 97, 108, 115], 313),
  ([103, 105, 103, 97, 112, 97, 115, 99, 97, 108], 314),
  ([71, 80, 97], 314),
  ([103, 105, 103, 97, 112, 97, 115, 99, 97, 108, 115], 314),
  ([98, 97, 114], 315),
  ([98, 97, 114, 115], 315),
  ([109, 105, 108, 108, 105, 98, 97, 114], 316),
  ([109, 98, 97, 114], 316),
  ([109, 105, 108, 108, 105, 98, 97, 114, 115], 316),
  ([107, 105, 108, 111, 98, 97, 114], 317),
  ([107, 98, 97, 114], 317),
  ([107, 105, 108, 111, 98, 97, 114, 115], 317),
  ([109, 101, 103, 97, 98, 97, 114], 318),
  ([77, 98, 97, 114], 318),
  ([109, 101, 103, 97, 98, 97, 114, 115], 318),
  ([103, 105, 103, 97, 98, 97, 114], 319),
  ([71, 98, 97, 114], 319),
  ([103, 105, 103, 97, 98, 97, 114, 115], 319),
  ([115, 116, 97, 110, 100, 97, 114, 100, 95, 97, 116, 109, 111, 115, 112, 104, 101, 114, 101], 320),
  ([97, 116, 109], 320),
  ([97, 116, 109, 111, 115, 112, 104, 101, 114, 101], 320),
  ([97, 116, 109, 111, 115, 112, 104, 101, 114, 101, 115], 320),
  ([115, 116, 97, 110, 100, 97, 114, 100, 95, 97, 116, 109, 111, 115, 112, 104, 101, 114, 101, 115], 320),
  ([116, 101, 99, 104, 110, 105, 99, 97, 108, 95, 97, 116, 109, 111, 115, 112, 104, 101, 114, 101], 321),
  ([97, 116], 321),
  ([116, 101, 99, 104, 110, 105, 99, 97, 108, 95, 97, 116, 109, 111, 115, 112, 104, 101, 114, 101, 115], 321),
  ([116, 111, 114, 114], 322),
  ([112, 111, 117, 110, 100, 95, 102, 111, 114, 99, 101, 95, 112, 101, 114, 95, 115, 113, 117, 97, 114, 101, 95, 105, 110, 99, 104], 323),
  ([112, 115, 105], 323),
  ([107, 105, 112, 95, 112, 101, 114, 95, 115, 113, 117, 97, 114, 101, 95, 105, 110, 99, 104], 324),
  ([107, 115, 105], 324),
  ([98, 97, 114, 121, 101], 325),
  ([66, 97], 325),
  ([98, 97, 114, 105, 101], 325),
  ([98, 97, 114, 105, 101, 115], 325),
  ([98, 97, 114, 121, 101, 115], 325),
  ([98, 97, 114, 97, 100], 325),
  ([98, 97, 114, 97, 100, 115], 325),
  ([98, 97, 114, 114, 105, 101], 325),
  ([98, 97, 114, 121, 100], 325),
  ([98, 97, 114, 121, 101, 100], 325),
  ([109, 105, 108, 108, 105, 109, 101, 116, 101, 114, 95, 72, 103], 326),
  ([109, 109, 72, 103], 326),
  ([109, 109, 95, 72, 103], 326),
  ([109, 105, 108, 108, 105, 109, 101, 116, 101, 114, 95, 72, 103, 95, 48, 67], 326),
  ([99, 109, 72, 103], 327),
  ([99, 109, 95, 72, 103], 327),
  ([99, 101, 110, 116, 105, 109, 101, 116, 101, 114, 95, 72, 103], 327),
  ([105, 110, 72, 103], 328),
  ([105, 110, 95, 72, 103], 328),
  ([105, 110, 99, 104, 95, 72, 103], 328),
  ([105, 110, 99, 104, 95, 72, 103, 95, 51, 50, 70], 328),
  ([105, 110, 99, 104, 95, 72, 103, 95, 54, 48, 70], 329),
  ([105, 110, 99, 104, 95, 72, 50, 79, 95, 51, 57, 70], 330),
  ([105, 110, 99, 104, 95, 72, 50, 79, 95, 54, 48, 70], 331),
  ([102, 111, 111, 116, 72, 50, 79], 332),
  ([99, 109, 72, 50, 79], 333),
  ([102, 111, 111, 116, 95, 72, 50, 79], 334),
  ([102, 116, 72, 50, 79], 334),
  ([98, 101, 99, 113, 117, 101, 114, 101, 108], 335),
  ([66, 113], 335),
  ([98, 101, 99, 113, 117, 101, 114, 101, 108, 115], 335),
  ([99, 117, 114, 105, 101], 336),
  ([67, 105], 336),
  ([99, 117, 114, 105, 101, 115], 336),
  ([114, 117, 116, 104, 101, 114, 102, 111, 114, 100], 337),
  ([82, 100], 337),
  ([114, 117, 116, 104, 101, 114, 102, 111, 114, 100, 115], 337),
  ([103, 114, 97, 121], 338),
  ([71, 121], 338),
  ([103, 114, 97, 121, 115], 338),
  ([83, 118], 338),
  ([115, 105, 101, 118, 101, 114, 116], 338),
  ([115, 105, 101, 118, 101, 114, 116, 115], 338),
  ([114, 101, 109], 339),
  ([114, 101, 109, 115], 339),
  ([114, 97, 100, 115], 340),
  ([114, 111, 101, 110, 116, 103, 101, 110], 341),
  ([82], 341),
  ([114, 111, 101, 110, 116, 103, 101, 110, 115], 341),
  ([112, 111, 105, 115, 101], 342),
  ([80], 342),
  ([99, 101, 110, 116, 105, 112, 111, 105, 115, 101], 343),
  ([99, 80], 343),
  ([115, 116, 111, 107, 101, 115], 344),
  ([83, 116], 344),
  ([114, 104, 101], 345)]

end PQ.Shipped
