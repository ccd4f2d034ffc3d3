/-
The coefficient tables of `libspa/ne_nrel.py:354-767`, transcribed mechanically (trailing zeros of the
fractional parts dropped). A decimal `m / 10^e` is written `⟨m, e⟩`.
-/
import Verif.Num

namespace SW.Nrel

/-- a decimal literal `m / 10^e` -/
structure Dec where
  m : Int
  e : Nat

/-- a row `[A, B, C]` of a series `A*cos(B + C*jme)` -/
structure Row where
  a : Dec
  b : Dec
  c : Dec

/-- a nutation row: `[A, B, C, D]` of `PARAMS_NUTATION_ABCD` and `[Y0, ..., Y4]` of
`PARAMS_NUTATION_YVALUES` -/
structure NutRow where
  a : Dec
  b : Dec
  c : Dec
  d : Dec
  y0 : Int
  y1 : Int
  y2 : Int
  y3 : Int
  y4 : Int

/-- `PARAMS_R_0`, ne_nrel.py:358-398 (40 rows) -/
def paramsR0 : List Row := [
  ⟨⟨100013989, 0⟩, ⟨0, 0⟩, ⟨0, 0⟩⟩,
  ⟨⟨1670700, 0⟩, ⟨30984635, 7⟩, ⟨628307585, 5⟩⟩,
  ⟨⟨13956, 0⟩, ⟨305525, 5⟩, ⟨125661517, 4⟩⟩,
  ⟨⟨3084, 0⟩, ⟨51985, 4⟩, ⟨777137715, 4⟩⟩,
  ⟨⟨1628, 0⟩, ⟨11739, 4⟩, ⟨57533849, 4⟩⟩,
  ⟨⟨1576, 0⟩, ⟨28469, 4⟩, ⟨78604194, 4⟩⟩,
  ⟨⟨925, 0⟩, ⟨5453, 3⟩, ⟨1150677, 2⟩⟩,
  ⟨⟨542, 0⟩, ⟨4564, 3⟩, ⟨393021, 2⟩⟩,
  ⟨⟨472, 0⟩, ⟨3661, 3⟩, ⟨5884927, 3⟩⟩,
  ⟨⟨346, 0⟩, ⟨964, 3⟩, ⟨5507553, 3⟩⟩,
  ⟨⟨329, 0⟩, ⟨59, 1⟩, ⟨5223694, 3⟩⟩,
  ⟨⟨307, 0⟩, ⟨299, 3⟩, ⟨5573143, 3⟩⟩,
  ⟨⟨243, 0⟩, ⟨4273, 3⟩, ⟨11790629, 3⟩⟩,
  ⟨⟨212, 0⟩, ⟨5847, 3⟩, ⟨1577344, 3⟩⟩,
  ⟨⟨186, 0⟩, ⟨5022, 3⟩, ⟨10977079, 3⟩⟩,
  ⟨⟨175, 0⟩, ⟨3012, 3⟩, ⟨18849228, 3⟩⟩,
  ⟨⟨110, 0⟩, ⟨5055, 3⟩, ⟨5486778, 3⟩⟩,
  ⟨⟨98, 0⟩, ⟨89, 2⟩, ⟨606978, 2⟩⟩,
  ⟨⟨86, 0⟩, ⟨569, 2⟩, ⟨1572084, 2⟩⟩,
  ⟨⟨86, 0⟩, ⟨127, 2⟩, ⟨16100069, 2⟩⟩,
  ⟨⟨65, 0⟩, ⟨27, 2⟩, ⟨1726015, 2⟩⟩,
  ⟨⟨63, 0⟩, ⟨92, 2⟩, ⟨52969, 2⟩⟩,
  ⟨⟨57, 0⟩, ⟨201, 2⟩, ⟨8399685, 2⟩⟩,
  ⟨⟨56, 0⟩, ⟨524, 2⟩, ⟨714307, 1⟩⟩,
  ⟨⟨49, 0⟩, ⟨325, 2⟩, ⟨254431, 2⟩⟩,
  ⟨⟨47, 0⟩, ⟨258, 2⟩, ⟨77552, 2⟩⟩,
  ⟨⟨45, 0⟩, ⟨554, 2⟩, ⟨943776, 2⟩⟩,
  ⟨⟨43, 0⟩, ⟨601, 2⟩, ⟨627596, 2⟩⟩,
  ⟨⟨39, 0⟩, ⟨536, 2⟩, ⟨4694, 0⟩⟩,
  ⟨⟨38, 0⟩, ⟨239, 2⟩, ⟨882739, 2⟩⟩,
  ⟨⟨37, 0⟩, ⟨83, 2⟩, ⟨1965105, 2⟩⟩,
  ⟨⟨37, 0⟩, ⟨49, 1⟩, ⟨1213955, 2⟩⟩,
  ⟨⟨36, 0⟩, ⟨167, 2⟩, ⟨1203646, 2⟩⟩,
  ⟨⟨35, 0⟩, ⟨184, 2⟩, ⟨294246, 2⟩⟩,
  ⟨⟨33, 0⟩, ⟨24, 2⟩, ⟨70849, 1⟩⟩,
  ⟨⟨32, 0⟩, ⟨18, 2⟩, ⟨508863, 2⟩⟩,
  ⟨⟨32, 0⟩, ⟨178, 2⟩, ⟨39815, 2⟩⟩,
  ⟨⟨28, 0⟩, ⟨121, 2⟩, ⟨62866, 1⟩⟩,
  ⟨⟨28, 0⟩, ⟨19, 1⟩, ⟨627955, 2⟩⟩,
  ⟨⟨26, 0⟩, ⟨459, 2⟩, ⟨1044739, 2⟩⟩]

/-- `PARAMS_R_1`, ne_nrel.py:402-412 (10 rows) -/
def paramsR1 : List Row := [
  ⟨⟨103019, 0⟩, ⟨110749, 5⟩, ⟨628307585, 5⟩⟩,
  ⟨⟨1721, 0⟩, ⟨10644, 4⟩, ⟨125661517, 4⟩⟩,
  ⟨⟨702, 0⟩, ⟨3142, 3⟩, ⟨0, 0⟩⟩,
  ⟨⟨32, 0⟩, ⟨102, 2⟩, ⟨1884923, 2⟩⟩,
  ⟨⟨31, 0⟩, ⟨284, 2⟩, ⟨550755, 2⟩⟩,
  ⟨⟨25, 0⟩, ⟨132, 2⟩, ⟨522369, 2⟩⟩,
  ⟨⟨18, 0⟩, ⟨142, 2⟩, ⟨157734, 2⟩⟩,
  ⟨⟨10, 0⟩, ⟨591, 2⟩, ⟨1097708, 2⟩⟩,
  ⟨⟨9, 0⟩, ⟨142, 2⟩, ⟨627596, 2⟩⟩,
  ⟨⟨9, 0⟩, ⟨27, 2⟩, ⟨548678, 2⟩⟩]

/-- `PARAMS_R_2`, ne_nrel.py:416-422 (6 rows) -/
def paramsR2 : List Row := [
  ⟨⟨4359, 0⟩, ⟨57846, 4⟩, ⟨62830758, 4⟩⟩,
  ⟨⟨124, 0⟩, ⟨5579, 3⟩, ⟨12566152, 3⟩⟩,
  ⟨⟨12, 0⟩, ⟨314, 2⟩, ⟨0, 0⟩⟩,
  ⟨⟨9, 0⟩, ⟨363, 2⟩, ⟨7771377, 2⟩⟩,
  ⟨⟨6, 0⟩, ⟨187, 2⟩, ⟨557314, 2⟩⟩,
  ⟨⟨3, 0⟩, ⟨547, 2⟩, ⟨1884923, 2⟩⟩]

/-- `PARAMS_R_3`, ne_nrel.py:426-428 (2 rows) -/
def paramsR3 : List Row := [
  ⟨⟨145, 0⟩, ⟨4273, 3⟩, ⟨6283076, 3⟩⟩,
  ⟨⟨7, 0⟩, ⟨392, 2⟩, ⟨1256615, 2⟩⟩]

/-- `PARAMS_R_4`, ne_nrel.py:432-433 (1 rows) -/
def paramsR4 : List Row := [
  ⟨⟨4, 0⟩, ⟨256, 2⟩, ⟨628308, 2⟩⟩]

/-- `PARAMS_LONG_0`, ne_nrel.py:448-512 (64 rows) -/
def paramsL0 : List Row := [
  ⟨⟨175347046, 0⟩, ⟨0, 0⟩, ⟨0, 0⟩⟩,
  ⟨⟨3341656, 0⟩, ⟨46692568, 7⟩, ⟨628307585, 5⟩⟩,
  ⟨⟨34894, 0⟩, ⟨46261, 4⟩, ⟨125661517, 4⟩⟩,
  ⟨⟨3497, 0⟩, ⟨27441, 4⟩, ⟨57533849, 4⟩⟩,
  ⟨⟨3418, 0⟩, ⟨28289, 4⟩, ⟨35231, 4⟩⟩,
  ⟨⟨3136, 0⟩, ⟨36277, 4⟩, ⟨777137715, 4⟩⟩,
  ⟨⟨2676, 0⟩, ⟨44181, 4⟩, ⟨78604194, 4⟩⟩,
  ⟨⟨2343, 0⟩, ⟨61352, 4⟩, ⟨39302097, 4⟩⟩,
  ⟨⟨1324, 0⟩, ⟨7425, 4⟩, ⟨115067698, 4⟩⟩,
  ⟨⟨1273, 0⟩, ⟨20371, 4⟩, ⟨529691, 3⟩⟩,
  ⟨⟨1199, 0⟩, ⟨11096, 4⟩, ⟨15773435, 4⟩⟩,
  ⟨⟨990, 0⟩, ⟨5233, 3⟩, ⟨5884927, 3⟩⟩,
  ⟨⟨902, 0⟩, ⟨2045, 3⟩, ⟨26298, 3⟩⟩,
  ⟨⟨857, 0⟩, ⟨3508, 3⟩, ⟨398149, 3⟩⟩,
  ⟨⟨780, 0⟩, ⟨1179, 3⟩, ⟨5223694, 3⟩⟩,
  ⟨⟨753, 0⟩, ⟨2533, 3⟩, ⟨5507553, 3⟩⟩,
  ⟨⟨505, 0⟩, ⟨4583, 3⟩, ⟨18849228, 3⟩⟩,
  ⟨⟨492, 0⟩, ⟨4205, 3⟩, ⟨775523, 3⟩⟩,
  ⟨⟨357, 0⟩, ⟨292, 2⟩, ⟨67, 3⟩⟩,
  ⟨⟨317, 0⟩, ⟨5849, 3⟩, ⟨11790629, 3⟩⟩,
  ⟨⟨284, 0⟩, ⟨1899, 3⟩, ⟨796298, 3⟩⟩,
  ⟨⟨271, 0⟩, ⟨315, 3⟩, ⟨10977079, 3⟩⟩,
  ⟨⟨243, 0⟩, ⟨345, 3⟩, ⟨5486778, 3⟩⟩,
  ⟨⟨206, 0⟩, ⟨4806, 3⟩, ⟨2544314, 3⟩⟩,
  ⟨⟨205, 0⟩, ⟨1869, 3⟩, ⟨5573143, 3⟩⟩,
  ⟨⟨202, 0⟩, ⟨2458, 3⟩, ⟨6069777, 3⟩⟩,
  ⟨⟨156, 0⟩, ⟨833, 3⟩, ⟨213299, 3⟩⟩,
  ⟨⟨132, 0⟩, ⟨3411, 3⟩, ⟨2942463, 3⟩⟩,
  ⟨⟨126, 0⟩, ⟨1083, 3⟩, ⟨20775, 3⟩⟩,
  ⟨⟨115, 0⟩, ⟨645, 3⟩, ⟨98, 2⟩⟩,
  ⟨⟨103, 0⟩, ⟨636, 3⟩, ⟨4694003, 3⟩⟩,
  ⟨⟨102, 0⟩, ⟨976, 3⟩, ⟨15720839, 3⟩⟩,
  ⟨⟨102, 0⟩, ⟨4267, 3⟩, ⟨7114, 3⟩⟩,
  ⟨⟨99, 0⟩, ⟨621, 2⟩, ⟨214617, 2⟩⟩,
  ⟨⟨98, 0⟩, ⟨68, 2⟩, ⟨15542, 2⟩⟩,
  ⟨⟨86, 0⟩, ⟨598, 2⟩, ⟨16100069, 2⟩⟩,
  ⟨⟨85, 0⟩, ⟨13, 1⟩, ⟨627596, 2⟩⟩,
  ⟨⟨85, 0⟩, ⟨367, 2⟩, ⟨714307, 1⟩⟩,
  ⟨⟨80, 0⟩, ⟨181, 2⟩, ⟨1726015, 2⟩⟩,
  ⟨⟨79, 0⟩, ⟨304, 2⟩, ⟨1203646, 2⟩⟩,
  ⟨⟨75, 0⟩, ⟨176, 2⟩, ⟨508863, 2⟩⟩,
  ⟨⟨74, 0⟩, ⟨35, 1⟩, ⟨315469, 2⟩⟩,
  ⟨⟨74, 0⟩, ⟨468, 2⟩, ⟨80182, 2⟩⟩,
  ⟨⟨70, 0⟩, ⟨83, 2⟩, ⟨943776, 2⟩⟩,
  ⟨⟨62, 0⟩, ⟨398, 2⟩, ⟨882739, 2⟩⟩,
  ⟨⟨61, 0⟩, ⟨182, 2⟩, ⟨70849, 1⟩⟩,
  ⟨⟨57, 0⟩, ⟨278, 2⟩, ⟨62866, 1⟩⟩,
  ⟨⟨56, 0⟩, ⟨439, 2⟩, ⟨141435, 1⟩⟩,
  ⟨⟨56, 0⟩, ⟨347, 2⟩, ⟨627955, 2⟩⟩,
  ⟨⟨52, 0⟩, ⟨19, 2⟩, ⟨1213955, 2⟩⟩,
  ⟨⟨52, 0⟩, ⟨133, 2⟩, ⟨174802, 2⟩⟩,
  ⟨⟨51, 0⟩, ⟨28, 2⟩, ⟨585648, 2⟩⟩,
  ⟨⟨49, 0⟩, ⟨49, 2⟩, ⟨119445, 2⟩⟩,
  ⟨⟨41, 0⟩, ⟨537, 2⟩, ⟨842924, 2⟩⟩,
  ⟨⟨41, 0⟩, ⟨24, 1⟩, ⟨1965105, 2⟩⟩,
  ⟨⟨39, 0⟩, ⟨617, 2⟩, ⟨1044739, 2⟩⟩,
  ⟨⟨37, 0⟩, ⟨604, 2⟩, ⟨1021329, 2⟩⟩,
  ⟨⟨37, 0⟩, ⟨257, 2⟩, ⟨105938, 2⟩⟩,
  ⟨⟨36, 0⟩, ⟨171, 2⟩, ⟨235287, 2⟩⟩,
  ⟨⟨36, 0⟩, ⟨178, 2⟩, ⟨681277, 2⟩⟩,
  ⟨⟨33, 0⟩, ⟨59, 2⟩, ⟨1778985, 2⟩⟩,
  ⟨⟨30, 0⟩, ⟨44, 2⟩, ⟨8399685, 2⟩⟩,
  ⟨⟨30, 0⟩, ⟨274, 2⟩, ⟨134987, 2⟩⟩,
  ⟨⟨25, 0⟩, ⟨316, 2⟩, ⟨469048, 2⟩⟩]

/-- `PARAMS_LONG_1`, ne_nrel.py:515-549 (34 rows) -/
def paramsL1 : List Row := [
  ⟨⟨628331966747, 0⟩, ⟨0, 0⟩, ⟨0, 0⟩⟩,
  ⟨⟨206059, 0⟩, ⟨2678235, 6⟩, ⟨628307585, 5⟩⟩,
  ⟨⟨4303, 0⟩, ⟨26351, 4⟩, ⟨125661517, 4⟩⟩,
  ⟨⟨425, 0⟩, ⟨159, 2⟩, ⟨3523, 3⟩⟩,
  ⟨⟨119, 0⟩, ⟨5796, 3⟩, ⟨26298, 3⟩⟩,
  ⟨⟨109, 0⟩, ⟨2966, 3⟩, ⟨1577344, 3⟩⟩,
  ⟨⟨93, 0⟩, ⟨259, 2⟩, ⟨1884923, 2⟩⟩,
  ⟨⟨72, 0⟩, ⟨114, 2⟩, ⟨52969, 2⟩⟩,
  ⟨⟨68, 0⟩, ⟨187, 2⟩, ⟨39815, 2⟩⟩,
  ⟨⟨67, 0⟩, ⟨441, 2⟩, ⟨550755, 2⟩⟩,
  ⟨⟨59, 0⟩, ⟨289, 2⟩, ⟨522369, 2⟩⟩,
  ⟨⟨56, 0⟩, ⟨217, 2⟩, ⟨15542, 2⟩⟩,
  ⟨⟨45, 0⟩, ⟨4, 1⟩, ⟨7963, 1⟩⟩,
  ⟨⟨36, 0⟩, ⟨47, 2⟩, ⟨77552, 2⟩⟩,
  ⟨⟨29, 0⟩, ⟨265, 2⟩, ⟨711, 2⟩⟩,
  ⟨⟨21, 0⟩, ⟨534, 2⟩, ⟨98, 2⟩⟩,
  ⟨⟨19, 0⟩, ⟨185, 2⟩, ⟨548678, 2⟩⟩,
  ⟨⟨19, 0⟩, ⟨497, 2⟩, ⟨2133, 1⟩⟩,
  ⟨⟨17, 0⟩, ⟨299, 2⟩, ⟨627596, 2⟩⟩,
  ⟨⟨16, 0⟩, ⟨3, 2⟩, ⟨254431, 2⟩⟩,
  ⟨⟨16, 0⟩, ⟨143, 2⟩, ⟨214617, 2⟩⟩,
  ⟨⟨15, 0⟩, ⟨121, 2⟩, ⟨1097708, 2⟩⟩,
  ⟨⟨12, 0⟩, ⟨283, 2⟩, ⟨174802, 2⟩⟩,
  ⟨⟨12, 0⟩, ⟨326, 2⟩, ⟨508863, 2⟩⟩,
  ⟨⟨12, 0⟩, ⟨527, 2⟩, ⟨119445, 2⟩⟩,
  ⟨⟨12, 0⟩, ⟨208, 2⟩, ⟨4694, 0⟩⟩,
  ⟨⟨11, 0⟩, ⟨77, 2⟩, ⟨55357, 2⟩⟩,
  ⟨⟨10, 0⟩, ⟨13, 1⟩, ⟨62866, 1⟩⟩,
  ⟨⟨10, 0⟩, ⟨424, 2⟩, ⟨134987, 2⟩⟩,
  ⟨⟨9, 0⟩, ⟨27, 1⟩, ⟨24273, 2⟩⟩,
  ⟨⟨9, 0⟩, ⟨564, 2⟩, ⟨95172, 2⟩⟩,
  ⟨⟨8, 0⟩, ⟨53, 1⟩, ⟨235287, 2⟩⟩,
  ⟨⟨6, 0⟩, ⟨265, 2⟩, ⟨943776, 2⟩⟩,
  ⟨⟨6, 0⟩, ⟨467, 2⟩, ⟨469048, 2⟩⟩]

/-- `PARAMS_LONG_2`, ne_nrel.py:552-572 (20 rows) -/
def paramsL2 : List Row := [
  ⟨⟨52919, 0⟩, ⟨0, 0⟩, ⟨0, 0⟩⟩,
  ⟨⟨8720, 0⟩, ⟨10721, 4⟩, ⟨62830758, 4⟩⟩,
  ⟨⟨309, 0⟩, ⟨867, 3⟩, ⟨12566152, 3⟩⟩,
  ⟨⟨27, 0⟩, ⟨5, 2⟩, ⟨352, 2⟩⟩,
  ⟨⟨16, 0⟩, ⟨519, 2⟩, ⟨263, 1⟩⟩,
  ⟨⟨16, 0⟩, ⟨368, 2⟩, ⟨15542, 2⟩⟩,
  ⟨⟨10, 0⟩, ⟨76, 2⟩, ⟨1884923, 2⟩⟩,
  ⟨⟨9, 0⟩, ⟨206, 2⟩, ⟨7771377, 2⟩⟩,
  ⟨⟨7, 0⟩, ⟨83, 2⟩, ⟨77552, 2⟩⟩,
  ⟨⟨5, 0⟩, ⟨466, 2⟩, ⟨157734, 2⟩⟩,
  ⟨⟨4, 0⟩, ⟨103, 2⟩, ⟨711, 2⟩⟩,
  ⟨⟨4, 0⟩, ⟨344, 2⟩, ⟨557314, 2⟩⟩,
  ⟨⟨3, 0⟩, ⟨514, 2⟩, ⟨7963, 1⟩⟩,
  ⟨⟨3, 0⟩, ⟨605, 2⟩, ⟨550755, 2⟩⟩,
  ⟨⟨3, 0⟩, ⟨119, 2⟩, ⟨24273, 2⟩⟩,
  ⟨⟨3, 0⟩, ⟨612, 2⟩, ⟨52969, 2⟩⟩,
  ⟨⟨3, 0⟩, ⟨31, 2⟩, ⟨39815, 2⟩⟩,
  ⟨⟨3, 0⟩, ⟨228, 2⟩, ⟨55357, 2⟩⟩,
  ⟨⟨2, 0⟩, ⟨438, 2⟩, ⟨522369, 2⟩⟩,
  ⟨⟨2, 0⟩, ⟨375, 2⟩, ⟨98, 2⟩⟩]

/-- `PARAMS_LONG_3`, ne_nrel.py:575-582 (7 rows) -/
def paramsL3 : List Row := [
  ⟨⟨289, 0⟩, ⟨5844, 3⟩, ⟨6283076, 3⟩⟩,
  ⟨⟨35, 0⟩, ⟨0, 0⟩, ⟨0, 0⟩⟩,
  ⟨⟨17, 0⟩, ⟨549, 2⟩, ⟨1256615, 2⟩⟩,
  ⟨⟨3, 0⟩, ⟨52, 1⟩, ⟨15542, 2⟩⟩,
  ⟨⟨1, 0⟩, ⟨472, 2⟩, ⟨352, 2⟩⟩,
  ⟨⟨1, 0⟩, ⟨53, 1⟩, ⟨1884923, 2⟩⟩,
  ⟨⟨1, 0⟩, ⟨597, 2⟩, ⟨24273, 2⟩⟩]

/-- `PARAMS_LONG_4`, ne_nrel.py:585-588 (3 rows) -/
def paramsL4 : List Row := [
  ⟨⟨114, 0⟩, ⟨3142, 3⟩, ⟨0, 0⟩⟩,
  ⟨⟨8, 0⟩, ⟨413, 2⟩, ⟨628308, 2⟩⟩,
  ⟨⟨1, 0⟩, ⟨384, 2⟩, ⟨1256615, 2⟩⟩]

/-- `PARAMS_LONG_5`, ne_nrel.py:591-592 (1 rows) -/
def paramsL5 : List Row := [
  ⟨⟨1, 0⟩, ⟨314, 2⟩, ⟨0, 0⟩⟩]

/-- `PARAMS_LAT_0`, ne_nrel.py:606-611 (5 rows) -/
def paramsB0 : List Row := [
  ⟨⟨280, 0⟩, ⟨3199, 3⟩, ⟨84334662, 3⟩⟩,
  ⟨⟨102, 0⟩, ⟨5422, 3⟩, ⟨5507553, 3⟩⟩,
  ⟨⟨80, 0⟩, ⟨388, 2⟩, ⟨522369, 2⟩⟩,
  ⟨⟨44, 0⟩, ⟨37, 1⟩, ⟨235287, 2⟩⟩,
  ⟨⟨32, 0⟩, ⟨4, 0⟩, ⟨157734, 2⟩⟩]

/-- `PARAMS_LAT_1`, ne_nrel.py:614-616 (2 rows) -/
def paramsB1 : List Row := [
  ⟨⟨9, 0⟩, ⟨39, 1⟩, ⟨550755, 2⟩⟩,
  ⟨⟨6, 0⟩, ⟨173, 2⟩, ⟨522369, 2⟩⟩]

/-- `PARAMS_NUTATION_ABCD` and `PARAMS_NUTATION_YVALUES` side by side, ne_nrel.py:628-691, 698-761
(63 rows) -/
def paramsNut : List NutRow := [
  ⟨⟨-171996, 0⟩, ⟨-1742, 1⟩, ⟨92025, 0⟩, ⟨89, 1⟩, 0, 0, 0, 0, 1⟩,
  ⟨⟨-13187, 0⟩, ⟨-16, 1⟩, ⟨5736, 0⟩, ⟨-31, 1⟩, -2, 0, 0, 2, 2⟩,
  ⟨⟨-2274, 0⟩, ⟨-2, 1⟩, ⟨977, 0⟩, ⟨-5, 1⟩, 0, 0, 0, 2, 2⟩,
  ⟨⟨2062, 0⟩, ⟨2, 1⟩, ⟨-895, 0⟩, ⟨5, 1⟩, 0, 0, 0, 0, 2⟩,
  ⟨⟨1426, 0⟩, ⟨-34, 1⟩, ⟨54, 0⟩, ⟨-1, 1⟩, 0, 1, 0, 0, 0⟩,
  ⟨⟨712, 0⟩, ⟨1, 1⟩, ⟨-7, 0⟩, ⟨0, 0⟩, 0, 0, 1, 0, 0⟩,
  ⟨⟨-517, 0⟩, ⟨12, 1⟩, ⟨224, 0⟩, ⟨-6, 1⟩, -2, 1, 0, 2, 2⟩,
  ⟨⟨-386, 0⟩, ⟨-4, 1⟩, ⟨200, 0⟩, ⟨0, 0⟩, 0, 0, 0, 2, 1⟩,
  ⟨⟨-301, 0⟩, ⟨0, 0⟩, ⟨129, 0⟩, ⟨-1, 1⟩, 0, 0, 1, 2, 2⟩,
  ⟨⟨217, 0⟩, ⟨-5, 1⟩, ⟨-95, 0⟩, ⟨3, 1⟩, -2, -1, 0, 2, 2⟩,
  ⟨⟨-158, 0⟩, ⟨0, 0⟩, ⟨0, 0⟩, ⟨0, 0⟩, -2, 0, 1, 0, 0⟩,
  ⟨⟨129, 0⟩, ⟨1, 1⟩, ⟨-70, 0⟩, ⟨0, 0⟩, -2, 0, 0, 2, 1⟩,
  ⟨⟨123, 0⟩, ⟨0, 0⟩, ⟨-53, 0⟩, ⟨0, 0⟩, 0, 0, -1, 2, 2⟩,
  ⟨⟨63, 0⟩, ⟨0, 0⟩, ⟨0, 0⟩, ⟨0, 0⟩, 2, 0, 0, 0, 0⟩,
  ⟨⟨63, 0⟩, ⟨1, 1⟩, ⟨-33, 0⟩, ⟨0, 0⟩, 0, 0, 1, 0, 1⟩,
  ⟨⟨-59, 0⟩, ⟨0, 0⟩, ⟨26, 0⟩, ⟨0, 0⟩, 2, 0, -1, 2, 2⟩,
  ⟨⟨-58, 0⟩, ⟨-1, 1⟩, ⟨32, 0⟩, ⟨0, 0⟩, 0, 0, -1, 0, 1⟩,
  ⟨⟨-51, 0⟩, ⟨0, 0⟩, ⟨27, 0⟩, ⟨0, 0⟩, 0, 0, 1, 2, 1⟩,
  ⟨⟨48, 0⟩, ⟨0, 0⟩, ⟨0, 0⟩, ⟨0, 0⟩, -2, 0, 2, 0, 0⟩,
  ⟨⟨46, 0⟩, ⟨0, 0⟩, ⟨-24, 0⟩, ⟨0, 0⟩, 0, 0, -2, 2, 1⟩,
  ⟨⟨-38, 0⟩, ⟨0, 0⟩, ⟨16, 0⟩, ⟨0, 0⟩, 2, 0, 0, 2, 2⟩,
  ⟨⟨-31, 0⟩, ⟨0, 0⟩, ⟨13, 0⟩, ⟨0, 0⟩, 0, 0, 2, 2, 2⟩,
  ⟨⟨29, 0⟩, ⟨0, 0⟩, ⟨0, 0⟩, ⟨0, 0⟩, 0, 0, 2, 0, 0⟩,
  ⟨⟨29, 0⟩, ⟨0, 0⟩, ⟨-12, 0⟩, ⟨0, 0⟩, -2, 0, 1, 2, 2⟩,
  ⟨⟨26, 0⟩, ⟨0, 0⟩, ⟨0, 0⟩, ⟨0, 0⟩, 0, 0, 0, 2, 0⟩,
  ⟨⟨-22, 0⟩, ⟨0, 0⟩, ⟨0, 0⟩, ⟨0, 0⟩, -2, 0, 0, 2, 0⟩,
  ⟨⟨21, 0⟩, ⟨0, 0⟩, ⟨-10, 0⟩, ⟨0, 0⟩, 0, 0, -1, 2, 1⟩,
  ⟨⟨17, 0⟩, ⟨-1, 1⟩, ⟨0, 0⟩, ⟨0, 0⟩, 0, 2, 0, 0, 0⟩,
  ⟨⟨16, 0⟩, ⟨0, 0⟩, ⟨-8, 0⟩, ⟨0, 0⟩, 2, 0, -1, 0, 1⟩,
  ⟨⟨-16, 0⟩, ⟨1, 1⟩, ⟨7, 0⟩, ⟨0, 0⟩, -2, 2, 0, 2, 2⟩,
  ⟨⟨-15, 0⟩, ⟨0, 0⟩, ⟨9, 0⟩, ⟨0, 0⟩, 0, 1, 0, 0, 1⟩,
  ⟨⟨-13, 0⟩, ⟨0, 0⟩, ⟨7, 0⟩, ⟨0, 0⟩, -2, 0, 1, 0, 1⟩,
  ⟨⟨-12, 0⟩, ⟨0, 0⟩, ⟨6, 0⟩, ⟨0, 0⟩, 0, -1, 0, 0, 1⟩,
  ⟨⟨11, 0⟩, ⟨0, 0⟩, ⟨0, 0⟩, ⟨0, 0⟩, 0, 0, 2, -2, 0⟩,
  ⟨⟨-10, 0⟩, ⟨0, 0⟩, ⟨5, 0⟩, ⟨0, 0⟩, 2, 0, -1, 2, 1⟩,
  ⟨⟨-8, 0⟩, ⟨0, 0⟩, ⟨3, 0⟩, ⟨0, 0⟩, 2, 0, 1, 2, 2⟩,
  ⟨⟨7, 0⟩, ⟨0, 0⟩, ⟨-3, 0⟩, ⟨0, 0⟩, 0, 1, 0, 2, 2⟩,
  ⟨⟨-7, 0⟩, ⟨0, 0⟩, ⟨0, 0⟩, ⟨0, 0⟩, -2, 1, 1, 0, 0⟩,
  ⟨⟨-7, 0⟩, ⟨0, 0⟩, ⟨3, 0⟩, ⟨0, 0⟩, 0, -1, 0, 2, 2⟩,
  ⟨⟨-7, 0⟩, ⟨0, 0⟩, ⟨3, 0⟩, ⟨0, 0⟩, 2, 0, 0, 2, 1⟩,
  ⟨⟨6, 0⟩, ⟨0, 0⟩, ⟨0, 0⟩, ⟨0, 0⟩, 2, 0, 1, 0, 0⟩,
  ⟨⟨6, 0⟩, ⟨0, 0⟩, ⟨-3, 0⟩, ⟨0, 0⟩, -2, 0, 2, 2, 2⟩,
  ⟨⟨6, 0⟩, ⟨0, 0⟩, ⟨-3, 0⟩, ⟨0, 0⟩, -2, 0, 1, 2, 1⟩,
  ⟨⟨-6, 0⟩, ⟨0, 0⟩, ⟨3, 0⟩, ⟨0, 0⟩, 2, 0, -2, 0, 1⟩,
  ⟨⟨-6, 0⟩, ⟨0, 0⟩, ⟨3, 0⟩, ⟨0, 0⟩, 2, 0, 0, 0, 1⟩,
  ⟨⟨5, 0⟩, ⟨0, 0⟩, ⟨0, 0⟩, ⟨0, 0⟩, 0, -1, 1, 0, 0⟩,
  ⟨⟨-5, 0⟩, ⟨0, 0⟩, ⟨3, 0⟩, ⟨0, 0⟩, -2, -1, 0, 2, 1⟩,
  ⟨⟨-5, 0⟩, ⟨0, 0⟩, ⟨3, 0⟩, ⟨0, 0⟩, -2, 0, 0, 0, 1⟩,
  ⟨⟨-5, 0⟩, ⟨0, 0⟩, ⟨3, 0⟩, ⟨0, 0⟩, 0, 0, 2, 2, 1⟩,
  ⟨⟨4, 0⟩, ⟨0, 0⟩, ⟨0, 0⟩, ⟨0, 0⟩, -2, 0, 2, 0, 1⟩,
  ⟨⟨4, 0⟩, ⟨0, 0⟩, ⟨0, 0⟩, ⟨0, 0⟩, -2, 1, 0, 2, 1⟩,
  ⟨⟨4, 0⟩, ⟨0, 0⟩, ⟨0, 0⟩, ⟨0, 0⟩, 0, 0, 1, -2, 0⟩,
  ⟨⟨-4, 0⟩, ⟨0, 0⟩, ⟨0, 0⟩, ⟨0, 0⟩, -1, 0, 1, 0, 0⟩,
  ⟨⟨-4, 0⟩, ⟨0, 0⟩, ⟨0, 0⟩, ⟨0, 0⟩, -2, 1, 0, 0, 0⟩,
  ⟨⟨-4, 0⟩, ⟨0, 0⟩, ⟨0, 0⟩, ⟨0, 0⟩, 1, 0, 0, 0, 0⟩,
  ⟨⟨3, 0⟩, ⟨0, 0⟩, ⟨0, 0⟩, ⟨0, 0⟩, 0, 0, 1, 2, 0⟩,
  ⟨⟨-3, 0⟩, ⟨0, 0⟩, ⟨0, 0⟩, ⟨0, 0⟩, 0, 0, -2, 2, 2⟩,
  ⟨⟨-3, 0⟩, ⟨0, 0⟩, ⟨0, 0⟩, ⟨0, 0⟩, -1, -1, 1, 0, 0⟩,
  ⟨⟨-3, 0⟩, ⟨0, 0⟩, ⟨0, 0⟩, ⟨0, 0⟩, 0, 1, 1, 0, 0⟩,
  ⟨⟨-3, 0⟩, ⟨0, 0⟩, ⟨0, 0⟩, ⟨0, 0⟩, 0, -1, 1, 2, 2⟩,
  ⟨⟨-3, 0⟩, ⟨0, 0⟩, ⟨0, 0⟩, ⟨0, 0⟩, 2, -1, -1, 2, 2⟩,
  ⟨⟨-3, 0⟩, ⟨0, 0⟩, ⟨0, 0⟩, ⟨0, 0⟩, 0, 0, 3, 2, 2⟩,
  ⟨⟨-3, 0⟩, ⟨0, 0⟩, ⟨0, 0⟩, ⟨0, 0⟩, 2, -1, 0, 2, 2⟩]

end SW.Nrel
