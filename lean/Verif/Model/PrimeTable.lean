/-! # The prime tables (source/ReconstHelper.cpp 23-127 and 129-141)

Generated by tools/genprimes.py from the source text; values only. -/
namespace FireFly

/-- `primes()` (source/ReconstHelper.cpp 23-127). -/
def primes63 : List Nat := [
  9223372036854775783, 9223372036854775643, 9223372036854775549, 9223372036854775507,
  9223372036854775433, 9223372036854775421, 9223372036854775417, 9223372036854775399,
  9223372036854775351, 9223372036854775337, 9223372036854775291, 9223372036854775279,
  9223372036854775259, 9223372036854775181, 9223372036854775159, 9223372036854775139,
  9223372036854775097, 9223372036854775073, 9223372036854775057, 9223372036854774959,
  9223372036854774937, 9223372036854774917, 9223372036854774893, 9223372036854774797,
  9223372036854774739, 9223372036854774713, 9223372036854774679, 9223372036854774629,
  9223372036854774587, 9223372036854774571, 9223372036854774559, 9223372036854774511,
  9223372036854774509, 9223372036854774499, 9223372036854774451, 9223372036854774413,
  9223372036854774341, 9223372036854774319, 9223372036854774307, 9223372036854774277,
  9223372036854774257, 9223372036854774247, 9223372036854774233, 9223372036854774199,
  9223372036854774179, 9223372036854774173, 9223372036854774053, 9223372036854773999,
  9223372036854773977, 9223372036854773953, 9223372036854773899, 9223372036854773867,
  9223372036854773783, 9223372036854773639, 9223372036854773561, 9223372036854773557,
  9223372036854773519, 9223372036854773507, 9223372036854773489, 9223372036854773477,
  9223372036854773443, 9223372036854773429, 9223372036854773407, 9223372036854773353,
  9223372036854773293, 9223372036854773173, 9223372036854773069, 9223372036854773047,
  9223372036854772961, 9223372036854772957, 9223372036854772949, 9223372036854772903,
  9223372036854772847, 9223372036854772801, 9223372036854772733, 9223372036854772681,
  9223372036854772547, 9223372036854772469, 9223372036854772429, 9223372036854772367,
  9223372036854772289, 9223372036854772241, 9223372036854772169, 9223372036854772141,
  9223372036854772061, 9223372036854772051, 9223372036854772039, 9223372036854771989,
  9223372036854771977, 9223372036854771973, 9223372036854771953, 9223372036854771869,
  9223372036854771841, 9223372036854771833, 9223372036854771797, 9223372036854771749,
  9223372036854771737, 9223372036854771727, 9223372036854771703, 9223372036854771689,
  9223372036854771673, 9223372036854771613, 9223372036854771571, 9223372036854771569,
  9223372036854771563, 9223372036854771559, 9223372036854771541, 9223372036854771487,
  9223372036854771457, 9223372036854771451, 9223372036854771239, 9223372036854771227,
  9223372036854771149, 9223372036854771109, 9223372036854771071, 9223372036854771023,
  9223372036854771017, 9223372036854770939, 9223372036854770911, 9223372036854770813,
  9223372036854770749, 9223372036854770723, 9223372036854770591, 9223372036854770569,
  9223372036854770351, 9223372036854770321, 9223372036854770309, 9223372036854770287,
  9223372036854770203, 9223372036854770153, 9223372036854770129, 9223372036854770027,
  9223372036854769939, 9223372036854769921, 9223372036854769823, 9223372036854769799,
  9223372036854769763, 9223372036854769721, 9223372036854769459, 9223372036854769421,
  9223372036854769369, 9223372036854769357, 9223372036854769331, 9223372036854769303,
  9223372036854769289, 9223372036854769249, 9223372036854769243, 9223372036854769231,
  9223372036854769163, 9223372036854769141, 9223372036854769103, 9223372036854769099,
  9223372036854769063, 9223372036854769061, 9223372036854769009, 9223372036854768973,
  9223372036854768967, 9223372036854768841, 9223372036854768823, 9223372036854768773,
  9223372036854768743, 9223372036854768679, 9223372036854768539, 9223372036854768509,
  9223372036854768497, 9223372036854768467, 9223372036854768451, 9223372036854768427,
  9223372036854768347, 9223372036854768337, 9223372036854768269, 9223372036854768157,
  9223372036854768101, 9223372036854768083, 9223372036854767971, 9223372036854767881,
  9223372036854767839, 9223372036854767819, 9223372036854767713, 9223372036854767633,
  9223372036854767609, 9223372036854767509, 9223372036854767483, 9223372036854767383,
  9223372036854767371, 9223372036854767293, 9223372036854767237, 9223372036854767161,
  9223372036854767131, 9223372036854767087, 9223372036854767083, 9223372036854767021,
  9223372036854766969, 9223372036854766963, 9223372036854766943, 9223372036854766859,
  9223372036854766787, 9223372036854766771, 9223372036854766751, 9223372036854766541,
  9223372036854766387, 9223372036854766379, 9223372036854766321, 9223372036854766261,
  9223372036854766243, 9223372036854766199, 9223372036854766169, 9223372036854766129,
  9223372036854766061, 9223372036854766033, 9223372036854766031, 9223372036854766013,
  9223372036854766009, 9223372036854765941, 9223372036854765827, 9223372036854765809,
  9223372036854765793, 9223372036854765773, 9223372036854765767, 9223372036854765707,
  9223372036854765571, 9223372036854765557, 9223372036854765523, 9223372036854765521,
  9223372036854765487, 9223372036854765373, 9223372036854765343, 9223372036854765323,
  9223372036854765319, 9223372036854765299, 9223372036854765173, 9223372036854765143,
  9223372036854765091, 9223372036854765019, 9223372036854765001, 9223372036854764947,
  9223372036854764923, 9223372036854764891, 9223372036854764843, 9223372036854764753,
  9223372036854764693, 9223372036854764687, 9223372036854764639, 9223372036854764623,
  9223372036854764617, 9223372036854764597, 9223372036854764557, 9223372036854764549,
  9223372036854764513, 9223372036854764501, 9223372036854764471, 9223372036854764417,
  9223372036854764401, 9223372036854764317, 9223372036854764287, 9223372036854764251,
  9223372036854764233, 9223372036854764083, 9223372036854764057, 9223372036854764023,
  9223372036854764011, 9223372036854763939, 9223372036854763913, 9223372036854763847,
  9223372036854763813, 9223372036854763807, 9223372036854763717, 9223372036854763651,
  9223372036854763621, 9223372036854763583, 9223372036854763499, 9223372036854763453,
  9223372036854763393, 9223372036854763373, 9223372036854763283, 9223372036854763153,
  9223372036854763127, 9223372036854763057, 9223372036854763027, 9223372036854763013,
  9223372036854762799, 9223372036854762779, 9223372036854762757, 9223372036854762713,
  9223372036854762673, 9223372036854762643, 9223372036854762551, 9223372036854762529,
  9223372036854762481, 9223372036854762467, 9223372036854762463, 9223372036854762461,
  9223372036854762407, 9223372036854762179, 9223372036854762121, 9223372036854762119,
  9223372036854762109, 9223372036854762071, 9223372036854762023, 9223372036854762011]

/-- `primes_128()` (source/ReconstHelper.cpp 129-141): decimal strings in the source. -/
def primes128 : List Nat := [
  340282366920938463463374607431768211297,
  340282366920938463463374607431768211283,
  340282366920938463463374607431768211223,
  340282366920938463463374607431768211219,
  340282366920938463463374607431768211181,
  340282366920938463463374607431768211099,
  340282366920938463463374607431768210781,
  340282366920938463463374607431768210743,
  340282366920938463463374607431768210659,
  340282366920938463463374607431768210263]

end FireFly
