/-!
# The decoder table `src/pybsm/atms/fileDecoder.csv` (generated)

Generated from `/repo/src/pybsm/atms/fileDecoder.csv` (lines 2-3431), one entry per line of the
file, in file order.  Column 2 (altitude, km) is stored in units of 0.1 m and column 3 (ground
range, km) in units of 1 m, so that all entries are exact natural numbers.
-/

namespace PyBSM

/-- One row of `fileDecoder.csv`: file number, altitude (0.1 m), ground range (m), haze code.
Models `src/pybsm/atms/fileDecoder.csv`:2-3431. -/
structure DecRow where
  idx : Nat
  altDm : Nat
  rangeM : Nat
  haze : Nat
  deriving DecidableEq, Repr

/-- `fileDecoder.csv`:2-71 -/
def decoderChunk0 : List DecRow := [
  ⟨1, 20, 0, 1⟩, ⟨2, 20, 100, 1⟩, ⟨3, 20, 500, 1⟩, ⟨4, 20, 1000, 1⟩, ⟨5, 20, 2000, 1⟩,
  ⟨6, 20, 3000, 1⟩, ⟨7, 20, 4000, 1⟩, ⟨8, 20, 5000, 1⟩, ⟨9, 325, 0, 1⟩, ⟨10, 325, 100, 1⟩,
  ⟨11, 325, 500, 1⟩, ⟨12, 325, 1000, 1⟩, ⟨13, 325, 2000, 1⟩, ⟨14, 325, 3000, 1⟩, ⟨15, 325, 4000, 1⟩,
  ⟨16, 325, 5000, 1⟩, ⟨17, 325, 6000, 1⟩, ⟨18, 325, 7000, 1⟩, ⟨19, 325, 8000, 1⟩, ⟨20, 325, 9000, 1⟩,
  ⟨21, 325, 10000, 1⟩, ⟨22, 325, 11000, 1⟩, ⟨23, 325, 12000, 1⟩, ⟨24, 325, 13000, 1⟩, ⟨25, 325, 14000, 1⟩,
  ⟨26, 325, 15000, 1⟩, ⟨27, 325, 16000, 1⟩, ⟨28, 325, 17000, 1⟩, ⟨29, 325, 18000, 1⟩, ⟨30, 325, 19000, 1⟩,
  ⟨31, 325, 20000, 1⟩, ⟨32, 750, 0, 1⟩, ⟨33, 750, 100, 1⟩, ⟨34, 750, 500, 1⟩, ⟨35, 750, 1000, 1⟩,
  ⟨36, 750, 2000, 1⟩, ⟨37, 750, 3000, 1⟩, ⟨38, 750, 4000, 1⟩, ⟨39, 750, 5000, 1⟩, ⟨40, 750, 6000, 1⟩,
  ⟨41, 750, 7000, 1⟩, ⟨42, 750, 8000, 1⟩, ⟨43, 750, 9000, 1⟩, ⟨44, 750, 10000, 1⟩, ⟨45, 750, 11000, 1⟩,
  ⟨46, 750, 12000, 1⟩, ⟨47, 750, 13000, 1⟩, ⟨48, 750, 14000, 1⟩, ⟨49, 750, 15000, 1⟩, ⟨50, 750, 16000, 1⟩,
  ⟨51, 750, 17000, 1⟩, ⟨52, 750, 18000, 1⟩, ⟨53, 750, 19000, 1⟩, ⟨54, 750, 20000, 1⟩, ⟨55, 750, 22000, 1⟩,
  ⟨56, 750, 24000, 1⟩, ⟨57, 750, 26000, 1⟩, ⟨58, 750, 28000, 1⟩, ⟨59, 750, 30000, 1⟩, ⟨60, 1500, 0, 1⟩,
  ⟨61, 1500, 100, 1⟩, ⟨62, 1500, 500, 1⟩, ⟨63, 1500, 1000, 1⟩, ⟨64, 1500, 2000, 1⟩, ⟨65, 1500, 3000, 1⟩,
  ⟨66, 1500, 4000, 1⟩, ⟨67, 1500, 5000, 1⟩, ⟨68, 1500, 6000, 1⟩, ⟨69, 1500, 7000, 1⟩, ⟨70, 1500, 8000, 1⟩]

/-- `fileDecoder.csv`:72-141 -/
def decoderChunk1 : List DecRow := [
  ⟨71, 1500, 9000, 1⟩, ⟨72, 1500, 10000, 1⟩, ⟨73, 1500, 11000, 1⟩, ⟨74, 1500, 12000, 1⟩, ⟨75, 1500, 13000, 1⟩,
  ⟨76, 1500, 14000, 1⟩, ⟨77, 1500, 15000, 1⟩, ⟨78, 1500, 16000, 1⟩, ⟨79, 1500, 17000, 1⟩, ⟨80, 1500, 18000, 1⟩,
  ⟨81, 1500, 19000, 1⟩, ⟨82, 1500, 20000, 1⟩, ⟨83, 1500, 22000, 1⟩, ⟨84, 1500, 24000, 1⟩, ⟨85, 1500, 26000, 1⟩,
  ⟨86, 1500, 28000, 1⟩, ⟨87, 1500, 30000, 1⟩, ⟨88, 1500, 32000, 1⟩, ⟨89, 1500, 34000, 1⟩, ⟨90, 1500, 36000, 1⟩,
  ⟨91, 1500, 38000, 1⟩, ⟨92, 1500, 40000, 1⟩, ⟨93, 1500, 42000, 1⟩, ⟨94, 2250, 0, 1⟩, ⟨95, 2250, 100, 1⟩,
  ⟨96, 2250, 500, 1⟩, ⟨97, 2250, 1000, 1⟩, ⟨98, 2250, 2000, 1⟩, ⟨99, 2250, 3000, 1⟩, ⟨100, 2250, 4000, 1⟩,
  ⟨101, 2250, 5000, 1⟩, ⟨102, 2250, 6000, 1⟩, ⟨103, 2250, 7000, 1⟩, ⟨104, 2250, 8000, 1⟩, ⟨105, 2250, 9000, 1⟩,
  ⟨106, 2250, 10000, 1⟩, ⟨107, 2250, 11000, 1⟩, ⟨108, 2250, 12000, 1⟩, ⟨109, 2250, 13000, 1⟩, ⟨110, 2250, 14000, 1⟩,
  ⟨111, 2250, 15000, 1⟩, ⟨112, 2250, 16000, 1⟩, ⟨113, 2250, 17000, 1⟩, ⟨114, 2250, 18000, 1⟩, ⟨115, 2250, 19000, 1⟩,
  ⟨116, 2250, 20000, 1⟩, ⟨117, 2250, 22000, 1⟩, ⟨118, 2250, 24000, 1⟩, ⟨119, 2250, 26000, 1⟩, ⟨120, 2250, 28000, 1⟩,
  ⟨121, 2250, 30000, 1⟩, ⟨122, 2250, 32000, 1⟩, ⟨123, 2250, 34000, 1⟩, ⟨124, 2250, 36000, 1⟩, ⟨125, 2250, 38000, 1⟩,
  ⟨126, 2250, 40000, 1⟩, ⟨127, 2250, 42000, 1⟩, ⟨128, 2250, 44000, 1⟩, ⟨129, 2250, 46000, 1⟩, ⟨130, 2250, 48000, 1⟩,
  ⟨131, 2250, 50000, 1⟩, ⟨132, 2250, 52000, 1⟩, ⟨133, 5000, 0, 1⟩, ⟨134, 5000, 100, 1⟩, ⟨135, 5000, 500, 1⟩,
  ⟨136, 5000, 1000, 1⟩, ⟨137, 5000, 2000, 1⟩, ⟨138, 5000, 3000, 1⟩, ⟨139, 5000, 4000, 1⟩, ⟨140, 5000, 5000, 1⟩]

/-- `fileDecoder.csv`:142-211 -/
def decoderChunk2 : List DecRow := [
  ⟨141, 5000, 6000, 1⟩, ⟨142, 5000, 7000, 1⟩, ⟨143, 5000, 8000, 1⟩, ⟨144, 5000, 9000, 1⟩, ⟨145, 5000, 10000, 1⟩,
  ⟨146, 5000, 11000, 1⟩, ⟨147, 5000, 12000, 1⟩, ⟨148, 5000, 13000, 1⟩, ⟨149, 5000, 14000, 1⟩, ⟨150, 5000, 15000, 1⟩,
  ⟨151, 5000, 16000, 1⟩, ⟨152, 5000, 17000, 1⟩, ⟨153, 5000, 18000, 1⟩, ⟨154, 5000, 19000, 1⟩, ⟨155, 5000, 20000, 1⟩,
  ⟨156, 5000, 22000, 1⟩, ⟨157, 5000, 24000, 1⟩, ⟨158, 5000, 26000, 1⟩, ⟨159, 5000, 28000, 1⟩, ⟨160, 5000, 30000, 1⟩,
  ⟨161, 5000, 32000, 1⟩, ⟨162, 5000, 34000, 1⟩, ⟨163, 5000, 36000, 1⟩, ⟨164, 5000, 38000, 1⟩, ⟨165, 5000, 40000, 1⟩,
  ⟨166, 5000, 42000, 1⟩, ⟨167, 5000, 44000, 1⟩, ⟨168, 5000, 46000, 1⟩, ⟨169, 5000, 48000, 1⟩, ⟨170, 5000, 50000, 1⟩,
  ⟨171, 5000, 52000, 1⟩, ⟨172, 5000, 54000, 1⟩, ⟨173, 5000, 56000, 1⟩, ⟨174, 5000, 58000, 1⟩, ⟨175, 5000, 60000, 1⟩,
  ⟨176, 5000, 62000, 1⟩, ⟨177, 5000, 64000, 1⟩, ⟨178, 5000, 66000, 1⟩, ⟨179, 5000, 68000, 1⟩, ⟨180, 5000, 70000, 1⟩,
  ⟨181, 5000, 72000, 1⟩, ⟨182, 5000, 74000, 1⟩, ⟨183, 5000, 76000, 1⟩, ⟨184, 5000, 78000, 1⟩, ⟨185, 10000, 0, 1⟩,
  ⟨186, 10000, 100, 1⟩, ⟨187, 10000, 500, 1⟩, ⟨188, 10000, 1000, 1⟩, ⟨189, 10000, 2000, 1⟩, ⟨190, 10000, 3000, 1⟩,
  ⟨191, 10000, 4000, 1⟩, ⟨192, 10000, 5000, 1⟩, ⟨193, 10000, 6000, 1⟩, ⟨194, 10000, 7000, 1⟩, ⟨195, 10000, 8000, 1⟩,
  ⟨196, 10000, 9000, 1⟩, ⟨197, 10000, 10000, 1⟩, ⟨198, 10000, 11000, 1⟩, ⟨199, 10000, 12000, 1⟩, ⟨200, 10000, 13000, 1⟩,
  ⟨201, 10000, 14000, 1⟩, ⟨202, 10000, 15000, 1⟩, ⟨203, 10000, 16000, 1⟩, ⟨204, 10000, 17000, 1⟩, ⟨205, 10000, 18000, 1⟩,
  ⟨206, 10000, 19000, 1⟩, ⟨207, 10000, 20000, 1⟩, ⟨208, 10000, 22000, 1⟩, ⟨209, 10000, 24000, 1⟩, ⟨210, 10000, 26000, 1⟩]

/-- `fileDecoder.csv`:212-281 -/
def decoderChunk3 : List DecRow := [
  ⟨211, 10000, 28000, 1⟩, ⟨212, 10000, 30000, 1⟩, ⟨213, 10000, 32000, 1⟩, ⟨214, 10000, 34000, 1⟩, ⟨215, 10000, 36000, 1⟩,
  ⟨216, 10000, 38000, 1⟩, ⟨217, 10000, 40000, 1⟩, ⟨218, 10000, 42000, 1⟩, ⟨219, 10000, 44000, 1⟩, ⟨220, 10000, 46000, 1⟩,
  ⟨221, 10000, 48000, 1⟩, ⟨222, 10000, 50000, 1⟩, ⟨223, 10000, 52000, 1⟩, ⟨224, 10000, 54000, 1⟩, ⟨225, 10000, 56000, 1⟩,
  ⟨226, 10000, 58000, 1⟩, ⟨227, 10000, 60000, 1⟩, ⟨228, 10000, 62000, 1⟩, ⟨229, 10000, 64000, 1⟩, ⟨230, 10000, 66000, 1⟩,
  ⟨231, 10000, 68000, 1⟩, ⟨232, 10000, 70000, 1⟩, ⟨233, 10000, 72000, 1⟩, ⟨234, 10000, 74000, 1⟩, ⟨235, 10000, 76000, 1⟩,
  ⟨236, 10000, 78000, 1⟩, ⟨237, 10000, 80000, 1⟩, ⟨238, 10000, 85000, 1⟩, ⟨239, 10000, 90000, 1⟩, ⟨240, 10000, 95000, 1⟩,
  ⟨241, 10000, 100000, 1⟩, ⟨242, 10000, 105000, 1⟩, ⟨243, 10000, 110000, 1⟩, ⟨244, 20000, 0, 1⟩, ⟨245, 20000, 100, 1⟩,
  ⟨246, 20000, 500, 1⟩, ⟨247, 20000, 1000, 1⟩, ⟨248, 20000, 2000, 1⟩, ⟨249, 20000, 3000, 1⟩, ⟨250, 20000, 4000, 1⟩,
  ⟨251, 20000, 5000, 1⟩, ⟨252, 20000, 6000, 1⟩, ⟨253, 20000, 7000, 1⟩, ⟨254, 20000, 8000, 1⟩, ⟨255, 20000, 9000, 1⟩,
  ⟨256, 20000, 10000, 1⟩, ⟨257, 20000, 11000, 1⟩, ⟨258, 20000, 12000, 1⟩, ⟨259, 20000, 13000, 1⟩, ⟨260, 20000, 14000, 1⟩,
  ⟨261, 20000, 15000, 1⟩, ⟨262, 20000, 16000, 1⟩, ⟨263, 20000, 17000, 1⟩, ⟨264, 20000, 18000, 1⟩, ⟨265, 20000, 19000, 1⟩,
  ⟨266, 20000, 20000, 1⟩, ⟨267, 20000, 22000, 1⟩, ⟨268, 20000, 24000, 1⟩, ⟨269, 20000, 26000, 1⟩, ⟨270, 20000, 28000, 1⟩,
  ⟨271, 20000, 30000, 1⟩, ⟨272, 20000, 32000, 1⟩, ⟨273, 20000, 34000, 1⟩, ⟨274, 20000, 36000, 1⟩, ⟨275, 20000, 38000, 1⟩,
  ⟨276, 20000, 40000, 1⟩, ⟨277, 20000, 42000, 1⟩, ⟨278, 20000, 44000, 1⟩, ⟨279, 20000, 46000, 1⟩, ⟨280, 20000, 48000, 1⟩]

/-- `fileDecoder.csv`:282-351 -/
def decoderChunk4 : List DecRow := [
  ⟨281, 20000, 50000, 1⟩, ⟨282, 20000, 52000, 1⟩, ⟨283, 20000, 54000, 1⟩, ⟨284, 20000, 56000, 1⟩, ⟨285, 20000, 58000, 1⟩,
  ⟨286, 20000, 60000, 1⟩, ⟨287, 20000, 62000, 1⟩, ⟨288, 20000, 64000, 1⟩, ⟨289, 20000, 66000, 1⟩, ⟨290, 20000, 68000, 1⟩,
  ⟨291, 20000, 70000, 1⟩, ⟨292, 20000, 72000, 1⟩, ⟨293, 20000, 74000, 1⟩, ⟨294, 20000, 76000, 1⟩, ⟨295, 20000, 78000, 1⟩,
  ⟨296, 20000, 80000, 1⟩, ⟨297, 20000, 85000, 1⟩, ⟨298, 20000, 90000, 1⟩, ⟨299, 20000, 95000, 1⟩, ⟨300, 20000, 100000, 1⟩,
  ⟨301, 20000, 105000, 1⟩, ⟨302, 20000, 110000, 1⟩, ⟨303, 20000, 115000, 1⟩, ⟨304, 20000, 120000, 1⟩, ⟨305, 20000, 125000, 1⟩,
  ⟨306, 20000, 130000, 1⟩, ⟨307, 20000, 135000, 1⟩, ⟨308, 20000, 140000, 1⟩, ⟨309, 20000, 145000, 1⟩, ⟨310, 20000, 150000, 1⟩,
  ⟨311, 20000, 155000, 1⟩, ⟨312, 30000, 0, 1⟩, ⟨313, 30000, 100, 1⟩, ⟨314, 30000, 500, 1⟩, ⟨315, 30000, 1000, 1⟩,
  ⟨316, 30000, 2000, 1⟩, ⟨317, 30000, 3000, 1⟩, ⟨318, 30000, 4000, 1⟩, ⟨319, 30000, 5000, 1⟩, ⟨320, 30000, 6000, 1⟩,
  ⟨321, 30000, 7000, 1⟩, ⟨322, 30000, 8000, 1⟩, ⟨323, 30000, 9000, 1⟩, ⟨324, 30000, 10000, 1⟩, ⟨325, 30000, 11000, 1⟩,
  ⟨326, 30000, 12000, 1⟩, ⟨327, 30000, 13000, 1⟩, ⟨328, 30000, 14000, 1⟩, ⟨329, 30000, 15000, 1⟩, ⟨330, 30000, 16000, 1⟩,
  ⟨331, 30000, 17000, 1⟩, ⟨332, 30000, 18000, 1⟩, ⟨333, 30000, 19000, 1⟩, ⟨334, 30000, 20000, 1⟩, ⟨335, 30000, 22000, 1⟩,
  ⟨336, 30000, 24000, 1⟩, ⟨337, 30000, 26000, 1⟩, ⟨338, 30000, 28000, 1⟩, ⟨339, 30000, 30000, 1⟩, ⟨340, 30000, 32000, 1⟩,
  ⟨341, 30000, 34000, 1⟩, ⟨342, 30000, 36000, 1⟩, ⟨343, 30000, 38000, 1⟩, ⟨344, 30000, 40000, 1⟩, ⟨345, 30000, 42000, 1⟩,
  ⟨346, 30000, 44000, 1⟩, ⟨347, 30000, 46000, 1⟩, ⟨348, 30000, 48000, 1⟩, ⟨349, 30000, 50000, 1⟩, ⟨350, 30000, 52000, 1⟩]

/-- `fileDecoder.csv`:352-421 -/
def decoderChunk5 : List DecRow := [
  ⟨351, 30000, 54000, 1⟩, ⟨352, 30000, 56000, 1⟩, ⟨353, 30000, 58000, 1⟩, ⟨354, 30000, 60000, 1⟩, ⟨355, 30000, 62000, 1⟩,
  ⟨356, 30000, 64000, 1⟩, ⟨357, 30000, 66000, 1⟩, ⟨358, 30000, 68000, 1⟩, ⟨359, 30000, 70000, 1⟩, ⟨360, 30000, 72000, 1⟩,
  ⟨361, 30000, 74000, 1⟩, ⟨362, 30000, 76000, 1⟩, ⟨363, 30000, 78000, 1⟩, ⟨364, 30000, 80000, 1⟩, ⟨365, 30000, 85000, 1⟩,
  ⟨366, 30000, 90000, 1⟩, ⟨367, 30000, 95000, 1⟩, ⟨368, 30000, 100000, 1⟩, ⟨369, 30000, 105000, 1⟩, ⟨370, 30000, 110000, 1⟩,
  ⟨371, 30000, 115000, 1⟩, ⟨372, 30000, 120000, 1⟩, ⟨373, 30000, 125000, 1⟩, ⟨374, 30000, 130000, 1⟩, ⟨375, 30000, 135000, 1⟩,
  ⟨376, 30000, 140000, 1⟩, ⟨377, 30000, 145000, 1⟩, ⟨378, 30000, 150000, 1⟩, ⟨379, 30000, 155000, 1⟩, ⟨380, 30000, 160000, 1⟩,
  ⟨381, 30000, 165000, 1⟩, ⟨382, 30000, 170000, 1⟩, ⟨383, 30000, 175000, 1⟩, ⟨384, 30000, 180000, 1⟩, ⟨385, 30000, 185000, 1⟩,
  ⟨386, 30000, 190000, 1⟩, ⟨387, 30000, 195000, 1⟩, ⟨388, 40000, 0, 1⟩, ⟨389, 40000, 100, 1⟩, ⟨390, 40000, 500, 1⟩,
  ⟨391, 40000, 1000, 1⟩, ⟨392, 40000, 2000, 1⟩, ⟨393, 40000, 3000, 1⟩, ⟨394, 40000, 4000, 1⟩, ⟨395, 40000, 5000, 1⟩,
  ⟨396, 40000, 6000, 1⟩, ⟨397, 40000, 7000, 1⟩, ⟨398, 40000, 8000, 1⟩, ⟨399, 40000, 9000, 1⟩, ⟨400, 40000, 10000, 1⟩,
  ⟨401, 40000, 11000, 1⟩, ⟨402, 40000, 12000, 1⟩, ⟨403, 40000, 13000, 1⟩, ⟨404, 40000, 14000, 1⟩, ⟨405, 40000, 15000, 1⟩,
  ⟨406, 40000, 16000, 1⟩, ⟨407, 40000, 17000, 1⟩, ⟨408, 40000, 18000, 1⟩, ⟨409, 40000, 19000, 1⟩, ⟨410, 40000, 20000, 1⟩,
  ⟨411, 40000, 22000, 1⟩, ⟨412, 40000, 24000, 1⟩, ⟨413, 40000, 26000, 1⟩, ⟨414, 40000, 28000, 1⟩, ⟨415, 40000, 30000, 1⟩,
  ⟨416, 40000, 32000, 1⟩, ⟨417, 40000, 34000, 1⟩, ⟨418, 40000, 36000, 1⟩, ⟨419, 40000, 38000, 1⟩, ⟨420, 40000, 40000, 1⟩]

/-- `fileDecoder.csv`:422-491 -/
def decoderChunk6 : List DecRow := [
  ⟨421, 40000, 42000, 1⟩, ⟨422, 40000, 44000, 1⟩, ⟨423, 40000, 46000, 1⟩, ⟨424, 40000, 48000, 1⟩, ⟨425, 40000, 50000, 1⟩,
  ⟨426, 40000, 52000, 1⟩, ⟨427, 40000, 54000, 1⟩, ⟨428, 40000, 56000, 1⟩, ⟨429, 40000, 58000, 1⟩, ⟨430, 40000, 60000, 1⟩,
  ⟨431, 40000, 62000, 1⟩, ⟨432, 40000, 64000, 1⟩, ⟨433, 40000, 66000, 1⟩, ⟨434, 40000, 68000, 1⟩, ⟨435, 40000, 70000, 1⟩,
  ⟨436, 40000, 72000, 1⟩, ⟨437, 40000, 74000, 1⟩, ⟨438, 40000, 76000, 1⟩, ⟨439, 40000, 78000, 1⟩, ⟨440, 40000, 80000, 1⟩,
  ⟨441, 40000, 85000, 1⟩, ⟨442, 40000, 90000, 1⟩, ⟨443, 40000, 95000, 1⟩, ⟨444, 40000, 100000, 1⟩, ⟨445, 40000, 105000, 1⟩,
  ⟨446, 40000, 110000, 1⟩, ⟨447, 40000, 115000, 1⟩, ⟨448, 40000, 120000, 1⟩, ⟨449, 40000, 125000, 1⟩, ⟨450, 40000, 130000, 1⟩,
  ⟨451, 40000, 135000, 1⟩, ⟨452, 40000, 140000, 1⟩, ⟨453, 40000, 145000, 1⟩, ⟨454, 40000, 150000, 1⟩, ⟨455, 40000, 155000, 1⟩,
  ⟨456, 40000, 160000, 1⟩, ⟨457, 40000, 165000, 1⟩, ⟨458, 40000, 170000, 1⟩, ⟨459, 40000, 175000, 1⟩, ⟨460, 40000, 180000, 1⟩,
  ⟨461, 40000, 185000, 1⟩, ⟨462, 40000, 190000, 1⟩, ⟨463, 40000, 195000, 1⟩, ⟨464, 40000, 200000, 1⟩, ⟨465, 40000, 205000, 1⟩,
  ⟨466, 40000, 210000, 1⟩, ⟨467, 40000, 215000, 1⟩, ⟨468, 40000, 220000, 1⟩, ⟨469, 40000, 225000, 1⟩, ⟨470, 50000, 0, 1⟩,
  ⟨471, 50000, 100, 1⟩, ⟨472, 50000, 500, 1⟩, ⟨473, 50000, 1000, 1⟩, ⟨474, 50000, 2000, 1⟩, ⟨475, 50000, 3000, 1⟩,
  ⟨476, 50000, 4000, 1⟩, ⟨477, 50000, 5000, 1⟩, ⟨478, 50000, 6000, 1⟩, ⟨479, 50000, 7000, 1⟩, ⟨480, 50000, 8000, 1⟩,
  ⟨481, 50000, 9000, 1⟩, ⟨482, 50000, 10000, 1⟩, ⟨483, 50000, 11000, 1⟩, ⟨484, 50000, 12000, 1⟩, ⟨485, 50000, 13000, 1⟩,
  ⟨486, 50000, 14000, 1⟩, ⟨487, 50000, 15000, 1⟩, ⟨488, 50000, 16000, 1⟩, ⟨489, 50000, 17000, 1⟩, ⟨490, 50000, 18000, 1⟩]

/-- `fileDecoder.csv`:492-561 -/
def decoderChunk7 : List DecRow := [
  ⟨491, 50000, 19000, 1⟩, ⟨492, 50000, 20000, 1⟩, ⟨493, 50000, 22000, 1⟩, ⟨494, 50000, 24000, 1⟩, ⟨495, 50000, 26000, 1⟩,
  ⟨496, 50000, 28000, 1⟩, ⟨497, 50000, 30000, 1⟩, ⟨498, 50000, 32000, 1⟩, ⟨499, 50000, 34000, 1⟩, ⟨500, 50000, 36000, 1⟩,
  ⟨501, 50000, 38000, 1⟩, ⟨502, 50000, 40000, 1⟩, ⟨503, 50000, 42000, 1⟩, ⟨504, 50000, 44000, 1⟩, ⟨505, 50000, 46000, 1⟩,
  ⟨506, 50000, 48000, 1⟩, ⟨507, 50000, 50000, 1⟩, ⟨508, 50000, 52000, 1⟩, ⟨509, 50000, 54000, 1⟩, ⟨510, 50000, 56000, 1⟩,
  ⟨511, 50000, 58000, 1⟩, ⟨512, 50000, 60000, 1⟩, ⟨513, 50000, 62000, 1⟩, ⟨514, 50000, 64000, 1⟩, ⟨515, 50000, 66000, 1⟩,
  ⟨516, 50000, 68000, 1⟩, ⟨517, 50000, 70000, 1⟩, ⟨518, 50000, 72000, 1⟩, ⟨519, 50000, 74000, 1⟩, ⟨520, 50000, 76000, 1⟩,
  ⟨521, 50000, 78000, 1⟩, ⟨522, 50000, 80000, 1⟩, ⟨523, 50000, 85000, 1⟩, ⟨524, 50000, 90000, 1⟩, ⟨525, 50000, 95000, 1⟩,
  ⟨526, 50000, 100000, 1⟩, ⟨527, 50000, 105000, 1⟩, ⟨528, 50000, 110000, 1⟩, ⟨529, 50000, 115000, 1⟩, ⟨530, 50000, 120000, 1⟩,
  ⟨531, 50000, 125000, 1⟩, ⟨532, 50000, 130000, 1⟩, ⟨533, 50000, 135000, 1⟩, ⟨534, 50000, 140000, 1⟩, ⟨535, 50000, 145000, 1⟩,
  ⟨536, 50000, 150000, 1⟩, ⟨537, 50000, 155000, 1⟩, ⟨538, 50000, 160000, 1⟩, ⟨539, 50000, 165000, 1⟩, ⟨540, 50000, 170000, 1⟩,
  ⟨541, 50000, 175000, 1⟩, ⟨542, 50000, 180000, 1⟩, ⟨543, 50000, 185000, 1⟩, ⟨544, 50000, 190000, 1⟩, ⟨545, 50000, 195000, 1⟩,
  ⟨546, 50000, 200000, 1⟩, ⟨547, 50000, 205000, 1⟩, ⟨548, 50000, 210000, 1⟩, ⟨549, 50000, 215000, 1⟩, ⟨550, 50000, 220000, 1⟩,
  ⟨551, 50000, 225000, 1⟩, ⟨552, 50000, 230000, 1⟩, ⟨553, 50000, 235000, 1⟩, ⟨554, 50000, 240000, 1⟩, ⟨555, 50000, 245000, 1⟩,
  ⟨556, 50000, 250000, 1⟩, ⟨557, 60000, 0, 1⟩, ⟨558, 60000, 100, 1⟩, ⟨559, 60000, 500, 1⟩, ⟨560, 60000, 1000, 1⟩]

/-- `fileDecoder.csv`:562-631 -/
def decoderChunk8 : List DecRow := [
  ⟨561, 60000, 2000, 1⟩, ⟨562, 60000, 3000, 1⟩, ⟨563, 60000, 4000, 1⟩, ⟨564, 60000, 5000, 1⟩, ⟨565, 60000, 6000, 1⟩,
  ⟨566, 60000, 7000, 1⟩, ⟨567, 60000, 8000, 1⟩, ⟨568, 60000, 9000, 1⟩, ⟨569, 60000, 10000, 1⟩, ⟨570, 60000, 11000, 1⟩,
  ⟨571, 60000, 12000, 1⟩, ⟨572, 60000, 13000, 1⟩, ⟨573, 60000, 14000, 1⟩, ⟨574, 60000, 15000, 1⟩, ⟨575, 60000, 16000, 1⟩,
  ⟨576, 60000, 17000, 1⟩, ⟨577, 60000, 18000, 1⟩, ⟨578, 60000, 19000, 1⟩, ⟨579, 60000, 20000, 1⟩, ⟨580, 60000, 22000, 1⟩,
  ⟨581, 60000, 24000, 1⟩, ⟨582, 60000, 26000, 1⟩, ⟨583, 60000, 28000, 1⟩, ⟨584, 60000, 30000, 1⟩, ⟨585, 60000, 32000, 1⟩,
  ⟨586, 60000, 34000, 1⟩, ⟨587, 60000, 36000, 1⟩, ⟨588, 60000, 38000, 1⟩, ⟨589, 60000, 40000, 1⟩, ⟨590, 60000, 42000, 1⟩,
  ⟨591, 60000, 44000, 1⟩, ⟨592, 60000, 46000, 1⟩, ⟨593, 60000, 48000, 1⟩, ⟨594, 60000, 50000, 1⟩, ⟨595, 60000, 52000, 1⟩,
  ⟨596, 60000, 54000, 1⟩, ⟨597, 60000, 56000, 1⟩, ⟨598, 60000, 58000, 1⟩, ⟨599, 60000, 60000, 1⟩, ⟨600, 60000, 62000, 1⟩,
  ⟨601, 60000, 64000, 1⟩, ⟨602, 60000, 66000, 1⟩, ⟨603, 60000, 68000, 1⟩, ⟨604, 60000, 70000, 1⟩, ⟨605, 60000, 72000, 1⟩,
  ⟨606, 60000, 74000, 1⟩, ⟨607, 60000, 76000, 1⟩, ⟨608, 60000, 78000, 1⟩, ⟨609, 60000, 80000, 1⟩, ⟨610, 60000, 85000, 1⟩,
  ⟨611, 60000, 90000, 1⟩, ⟨612, 60000, 95000, 1⟩, ⟨613, 60000, 100000, 1⟩, ⟨614, 60000, 105000, 1⟩, ⟨615, 60000, 110000, 1⟩,
  ⟨616, 60000, 115000, 1⟩, ⟨617, 60000, 120000, 1⟩, ⟨618, 60000, 125000, 1⟩, ⟨619, 60000, 130000, 1⟩, ⟨620, 60000, 135000, 1⟩,
  ⟨621, 60000, 140000, 1⟩, ⟨622, 60000, 145000, 1⟩, ⟨623, 60000, 150000, 1⟩, ⟨624, 60000, 155000, 1⟩, ⟨625, 60000, 160000, 1⟩,
  ⟨626, 60000, 165000, 1⟩, ⟨627, 60000, 170000, 1⟩, ⟨628, 60000, 175000, 1⟩, ⟨629, 60000, 180000, 1⟩, ⟨630, 60000, 185000, 1⟩]

/-- `fileDecoder.csv`:632-701 -/
def decoderChunk9 : List DecRow := [
  ⟨631, 60000, 190000, 1⟩, ⟨632, 60000, 195000, 1⟩, ⟨633, 60000, 200000, 1⟩, ⟨634, 60000, 205000, 1⟩, ⟨635, 60000, 210000, 1⟩,
  ⟨636, 60000, 215000, 1⟩, ⟨637, 60000, 220000, 1⟩, ⟨638, 60000, 225000, 1⟩, ⟨639, 60000, 230000, 1⟩, ⟨640, 60000, 235000, 1⟩,
  ⟨641, 60000, 240000, 1⟩, ⟨642, 60000, 245000, 1⟩, ⟨643, 60000, 250000, 1⟩, ⟨644, 60000, 255000, 1⟩, ⟨645, 60000, 260000, 1⟩,
  ⟨646, 60000, 265000, 1⟩, ⟨647, 60000, 270000, 1⟩, ⟨648, 60000, 275000, 1⟩, ⟨649, 70000, 0, 1⟩, ⟨650, 70000, 100, 1⟩,
  ⟨651, 70000, 500, 1⟩, ⟨652, 70000, 1000, 1⟩, ⟨653, 70000, 2000, 1⟩, ⟨654, 70000, 3000, 1⟩, ⟨655, 70000, 4000, 1⟩,
  ⟨656, 70000, 5000, 1⟩, ⟨657, 70000, 6000, 1⟩, ⟨658, 70000, 7000, 1⟩, ⟨659, 70000, 8000, 1⟩, ⟨660, 70000, 9000, 1⟩,
  ⟨661, 70000, 10000, 1⟩, ⟨662, 70000, 11000, 1⟩, ⟨663, 70000, 12000, 1⟩, ⟨664, 70000, 13000, 1⟩, ⟨665, 70000, 14000, 1⟩,
  ⟨666, 70000, 15000, 1⟩, ⟨667, 70000, 16000, 1⟩, ⟨668, 70000, 17000, 1⟩, ⟨669, 70000, 18000, 1⟩, ⟨670, 70000, 19000, 1⟩,
  ⟨671, 70000, 20000, 1⟩, ⟨672, 70000, 22000, 1⟩, ⟨673, 70000, 24000, 1⟩, ⟨674, 70000, 26000, 1⟩, ⟨675, 70000, 28000, 1⟩,
  ⟨676, 70000, 30000, 1⟩, ⟨677, 70000, 32000, 1⟩, ⟨678, 70000, 34000, 1⟩, ⟨679, 70000, 36000, 1⟩, ⟨680, 70000, 38000, 1⟩,
  ⟨681, 70000, 40000, 1⟩, ⟨682, 70000, 42000, 1⟩, ⟨683, 70000, 44000, 1⟩, ⟨684, 70000, 46000, 1⟩, ⟨685, 70000, 48000, 1⟩,
  ⟨686, 70000, 50000, 1⟩, ⟨687, 70000, 52000, 1⟩, ⟨688, 70000, 54000, 1⟩, ⟨689, 70000, 56000, 1⟩, ⟨690, 70000, 58000, 1⟩,
  ⟨691, 70000, 60000, 1⟩, ⟨692, 70000, 62000, 1⟩, ⟨693, 70000, 64000, 1⟩, ⟨694, 70000, 66000, 1⟩, ⟨695, 70000, 68000, 1⟩,
  ⟨696, 70000, 70000, 1⟩, ⟨697, 70000, 72000, 1⟩, ⟨698, 70000, 74000, 1⟩, ⟨699, 70000, 76000, 1⟩, ⟨700, 70000, 78000, 1⟩]

/-- `fileDecoder.csv`:702-771 -/
def decoderChunk10 : List DecRow := [
  ⟨701, 70000, 80000, 1⟩, ⟨702, 70000, 85000, 1⟩, ⟨703, 70000, 90000, 1⟩, ⟨704, 70000, 95000, 1⟩, ⟨705, 70000, 100000, 1⟩,
  ⟨706, 70000, 105000, 1⟩, ⟨707, 70000, 110000, 1⟩, ⟨708, 70000, 115000, 1⟩, ⟨709, 70000, 120000, 1⟩, ⟨710, 70000, 125000, 1⟩,
  ⟨711, 70000, 130000, 1⟩, ⟨712, 70000, 135000, 1⟩, ⟨713, 70000, 140000, 1⟩, ⟨714, 70000, 145000, 1⟩, ⟨715, 70000, 150000, 1⟩,
  ⟨716, 70000, 155000, 1⟩, ⟨717, 70000, 160000, 1⟩, ⟨718, 70000, 165000, 1⟩, ⟨719, 70000, 170000, 1⟩, ⟨720, 70000, 175000, 1⟩,
  ⟨721, 70000, 180000, 1⟩, ⟨722, 70000, 185000, 1⟩, ⟨723, 70000, 190000, 1⟩, ⟨724, 70000, 195000, 1⟩, ⟨725, 70000, 200000, 1⟩,
  ⟨726, 70000, 205000, 1⟩, ⟨727, 70000, 210000, 1⟩, ⟨728, 70000, 215000, 1⟩, ⟨729, 70000, 220000, 1⟩, ⟨730, 70000, 225000, 1⟩,
  ⟨731, 70000, 230000, 1⟩, ⟨732, 70000, 235000, 1⟩, ⟨733, 70000, 240000, 1⟩, ⟨734, 70000, 245000, 1⟩, ⟨735, 70000, 250000, 1⟩,
  ⟨736, 70000, 255000, 1⟩, ⟨737, 70000, 260000, 1⟩, ⟨738, 70000, 265000, 1⟩, ⟨739, 70000, 270000, 1⟩, ⟨740, 70000, 275000, 1⟩,
  ⟨741, 70000, 280000, 1⟩, ⟨742, 70000, 285000, 1⟩, ⟨743, 70000, 290000, 1⟩, ⟨744, 70000, 295000, 1⟩, ⟨745, 80000, 0, 1⟩,
  ⟨746, 80000, 100, 1⟩, ⟨747, 80000, 500, 1⟩, ⟨748, 80000, 1000, 1⟩, ⟨749, 80000, 2000, 1⟩, ⟨750, 80000, 3000, 1⟩,
  ⟨751, 80000, 4000, 1⟩, ⟨752, 80000, 5000, 1⟩, ⟨753, 80000, 6000, 1⟩, ⟨754, 80000, 7000, 1⟩, ⟨755, 80000, 8000, 1⟩,
  ⟨756, 80000, 9000, 1⟩, ⟨757, 80000, 10000, 1⟩, ⟨758, 80000, 11000, 1⟩, ⟨759, 80000, 12000, 1⟩, ⟨760, 80000, 13000, 1⟩,
  ⟨761, 80000, 14000, 1⟩, ⟨762, 80000, 15000, 1⟩, ⟨763, 80000, 16000, 1⟩, ⟨764, 80000, 17000, 1⟩, ⟨765, 80000, 18000, 1⟩,
  ⟨766, 80000, 19000, 1⟩, ⟨767, 80000, 20000, 1⟩, ⟨768, 80000, 22000, 1⟩, ⟨769, 80000, 24000, 1⟩, ⟨770, 80000, 26000, 1⟩]

/-- `fileDecoder.csv`:772-841 -/
def decoderChunk11 : List DecRow := [
  ⟨771, 80000, 28000, 1⟩, ⟨772, 80000, 30000, 1⟩, ⟨773, 80000, 32000, 1⟩, ⟨774, 80000, 34000, 1⟩, ⟨775, 80000, 36000, 1⟩,
  ⟨776, 80000, 38000, 1⟩, ⟨777, 80000, 40000, 1⟩, ⟨778, 80000, 42000, 1⟩, ⟨779, 80000, 44000, 1⟩, ⟨780, 80000, 46000, 1⟩,
  ⟨781, 80000, 48000, 1⟩, ⟨782, 80000, 50000, 1⟩, ⟨783, 80000, 52000, 1⟩, ⟨784, 80000, 54000, 1⟩, ⟨785, 80000, 56000, 1⟩,
  ⟨786, 80000, 58000, 1⟩, ⟨787, 80000, 60000, 1⟩, ⟨788, 80000, 62000, 1⟩, ⟨789, 80000, 64000, 1⟩, ⟨790, 80000, 66000, 1⟩,
  ⟨791, 80000, 68000, 1⟩, ⟨792, 80000, 70000, 1⟩, ⟨793, 80000, 72000, 1⟩, ⟨794, 80000, 74000, 1⟩, ⟨795, 80000, 76000, 1⟩,
  ⟨796, 80000, 78000, 1⟩, ⟨797, 80000, 80000, 1⟩, ⟨798, 80000, 85000, 1⟩, ⟨799, 80000, 90000, 1⟩, ⟨800, 80000, 95000, 1⟩,
  ⟨801, 80000, 100000, 1⟩, ⟨802, 80000, 105000, 1⟩, ⟨803, 80000, 110000, 1⟩, ⟨804, 80000, 115000, 1⟩, ⟨805, 80000, 120000, 1⟩,
  ⟨806, 80000, 125000, 1⟩, ⟨807, 80000, 130000, 1⟩, ⟨808, 80000, 135000, 1⟩, ⟨809, 80000, 140000, 1⟩, ⟨810, 80000, 145000, 1⟩,
  ⟨811, 80000, 150000, 1⟩, ⟨812, 80000, 155000, 1⟩, ⟨813, 80000, 160000, 1⟩, ⟨814, 80000, 165000, 1⟩, ⟨815, 80000, 170000, 1⟩,
  ⟨816, 80000, 175000, 1⟩, ⟨817, 80000, 180000, 1⟩, ⟨818, 80000, 185000, 1⟩, ⟨819, 80000, 190000, 1⟩, ⟨820, 80000, 195000, 1⟩,
  ⟨821, 80000, 200000, 1⟩, ⟨822, 80000, 205000, 1⟩, ⟨823, 80000, 210000, 1⟩, ⟨824, 80000, 215000, 1⟩, ⟨825, 80000, 220000, 1⟩,
  ⟨826, 80000, 225000, 1⟩, ⟨827, 80000, 230000, 1⟩, ⟨828, 80000, 235000, 1⟩, ⟨829, 80000, 240000, 1⟩, ⟨830, 80000, 245000, 1⟩,
  ⟨831, 80000, 250000, 1⟩, ⟨832, 80000, 255000, 1⟩, ⟨833, 80000, 260000, 1⟩, ⟨834, 80000, 265000, 1⟩, ⟨835, 80000, 270000, 1⟩,
  ⟨836, 80000, 275000, 1⟩, ⟨837, 80000, 280000, 1⟩, ⟨838, 80000, 285000, 1⟩, ⟨839, 80000, 290000, 1⟩, ⟨840, 80000, 295000, 1⟩]

/-- `fileDecoder.csv`:842-911 -/
def decoderChunk12 : List DecRow := [
  ⟨841, 80000, 300000, 1⟩, ⟨842, 90000, 0, 1⟩, ⟨843, 90000, 100, 1⟩, ⟨844, 90000, 500, 1⟩, ⟨845, 90000, 1000, 1⟩,
  ⟨846, 90000, 2000, 1⟩, ⟨847, 90000, 3000, 1⟩, ⟨848, 90000, 4000, 1⟩, ⟨849, 90000, 5000, 1⟩, ⟨850, 90000, 6000, 1⟩,
  ⟨851, 90000, 7000, 1⟩, ⟨852, 90000, 8000, 1⟩, ⟨853, 90000, 9000, 1⟩, ⟨854, 90000, 10000, 1⟩, ⟨855, 90000, 11000, 1⟩,
  ⟨856, 90000, 12000, 1⟩, ⟨857, 90000, 13000, 1⟩, ⟨858, 90000, 14000, 1⟩, ⟨859, 90000, 15000, 1⟩, ⟨860, 90000, 16000, 1⟩,
  ⟨861, 90000, 17000, 1⟩, ⟨862, 90000, 18000, 1⟩, ⟨863, 90000, 19000, 1⟩, ⟨864, 90000, 20000, 1⟩, ⟨865, 90000, 22000, 1⟩,
  ⟨866, 90000, 24000, 1⟩, ⟨867, 90000, 26000, 1⟩, ⟨868, 90000, 28000, 1⟩, ⟨869, 90000, 30000, 1⟩, ⟨870, 90000, 32000, 1⟩,
  ⟨871, 90000, 34000, 1⟩, ⟨872, 90000, 36000, 1⟩, ⟨873, 90000, 38000, 1⟩, ⟨874, 90000, 40000, 1⟩, ⟨875, 90000, 42000, 1⟩,
  ⟨876, 90000, 44000, 1⟩, ⟨877, 90000, 46000, 1⟩, ⟨878, 90000, 48000, 1⟩, ⟨879, 90000, 50000, 1⟩, ⟨880, 90000, 52000, 1⟩,
  ⟨881, 90000, 54000, 1⟩, ⟨882, 90000, 56000, 1⟩, ⟨883, 90000, 58000, 1⟩, ⟨884, 90000, 60000, 1⟩, ⟨885, 90000, 62000, 1⟩,
  ⟨886, 90000, 64000, 1⟩, ⟨887, 90000, 66000, 1⟩, ⟨888, 90000, 68000, 1⟩, ⟨889, 90000, 70000, 1⟩, ⟨890, 90000, 72000, 1⟩,
  ⟨891, 90000, 74000, 1⟩, ⟨892, 90000, 76000, 1⟩, ⟨893, 90000, 78000, 1⟩, ⟨894, 90000, 80000, 1⟩, ⟨895, 90000, 85000, 1⟩,
  ⟨896, 90000, 90000, 1⟩, ⟨897, 90000, 95000, 1⟩, ⟨898, 90000, 100000, 1⟩, ⟨899, 90000, 105000, 1⟩, ⟨900, 90000, 110000, 1⟩,
  ⟨901, 90000, 115000, 1⟩, ⟨902, 90000, 120000, 1⟩, ⟨903, 90000, 125000, 1⟩, ⟨904, 90000, 130000, 1⟩, ⟨905, 90000, 135000, 1⟩,
  ⟨906, 90000, 140000, 1⟩, ⟨907, 90000, 145000, 1⟩, ⟨908, 90000, 150000, 1⟩, ⟨909, 90000, 155000, 1⟩, ⟨910, 90000, 160000, 1⟩]

/-- `fileDecoder.csv`:912-981 -/
def decoderChunk13 : List DecRow := [
  ⟨911, 90000, 165000, 1⟩, ⟨912, 90000, 170000, 1⟩, ⟨913, 90000, 175000, 1⟩, ⟨914, 90000, 180000, 1⟩, ⟨915, 90000, 185000, 1⟩,
  ⟨916, 90000, 190000, 1⟩, ⟨917, 90000, 195000, 1⟩, ⟨918, 90000, 200000, 1⟩, ⟨919, 90000, 205000, 1⟩, ⟨920, 90000, 210000, 1⟩,
  ⟨921, 90000, 215000, 1⟩, ⟨922, 90000, 220000, 1⟩, ⟨923, 90000, 225000, 1⟩, ⟨924, 90000, 230000, 1⟩, ⟨925, 90000, 235000, 1⟩,
  ⟨926, 90000, 240000, 1⟩, ⟨927, 90000, 245000, 1⟩, ⟨928, 90000, 250000, 1⟩, ⟨929, 90000, 255000, 1⟩, ⟨930, 90000, 260000, 1⟩,
  ⟨931, 90000, 265000, 1⟩, ⟨932, 90000, 270000, 1⟩, ⟨933, 90000, 275000, 1⟩, ⟨934, 90000, 280000, 1⟩, ⟨935, 90000, 285000, 1⟩,
  ⟨936, 90000, 290000, 1⟩, ⟨937, 90000, 295000, 1⟩, ⟨938, 90000, 300000, 1⟩, ⟨939, 100000, 0, 1⟩, ⟨940, 100000, 100, 1⟩,
  ⟨941, 100000, 500, 1⟩, ⟨942, 100000, 1000, 1⟩, ⟨943, 100000, 2000, 1⟩, ⟨944, 100000, 3000, 1⟩, ⟨945, 100000, 4000, 1⟩,
  ⟨946, 100000, 5000, 1⟩, ⟨947, 100000, 6000, 1⟩, ⟨948, 100000, 7000, 1⟩, ⟨949, 100000, 8000, 1⟩, ⟨950, 100000, 9000, 1⟩,
  ⟨951, 100000, 10000, 1⟩, ⟨952, 100000, 11000, 1⟩, ⟨953, 100000, 12000, 1⟩, ⟨954, 100000, 13000, 1⟩, ⟨955, 100000, 14000, 1⟩,
  ⟨956, 100000, 15000, 1⟩, ⟨957, 100000, 16000, 1⟩, ⟨958, 100000, 17000, 1⟩, ⟨959, 100000, 18000, 1⟩, ⟨960, 100000, 19000, 1⟩,
  ⟨961, 100000, 20000, 1⟩, ⟨962, 100000, 22000, 1⟩, ⟨963, 100000, 24000, 1⟩, ⟨964, 100000, 26000, 1⟩, ⟨965, 100000, 28000, 1⟩,
  ⟨966, 100000, 30000, 1⟩, ⟨967, 100000, 32000, 1⟩, ⟨968, 100000, 34000, 1⟩, ⟨969, 100000, 36000, 1⟩, ⟨970, 100000, 38000, 1⟩,
  ⟨971, 100000, 40000, 1⟩, ⟨972, 100000, 42000, 1⟩, ⟨973, 100000, 44000, 1⟩, ⟨974, 100000, 46000, 1⟩, ⟨975, 100000, 48000, 1⟩,
  ⟨976, 100000, 50000, 1⟩, ⟨977, 100000, 52000, 1⟩, ⟨978, 100000, 54000, 1⟩, ⟨979, 100000, 56000, 1⟩, ⟨980, 100000, 58000, 1⟩]

/-- `fileDecoder.csv`:982-1051 -/
def decoderChunk14 : List DecRow := [
  ⟨981, 100000, 60000, 1⟩, ⟨982, 100000, 62000, 1⟩, ⟨983, 100000, 64000, 1⟩, ⟨984, 100000, 66000, 1⟩, ⟨985, 100000, 68000, 1⟩,
  ⟨986, 100000, 70000, 1⟩, ⟨987, 100000, 72000, 1⟩, ⟨988, 100000, 74000, 1⟩, ⟨989, 100000, 76000, 1⟩, ⟨990, 100000, 78000, 1⟩,
  ⟨991, 100000, 80000, 1⟩, ⟨992, 100000, 85000, 1⟩, ⟨993, 100000, 90000, 1⟩, ⟨994, 100000, 95000, 1⟩, ⟨995, 100000, 100000, 1⟩,
  ⟨996, 100000, 105000, 1⟩, ⟨997, 100000, 110000, 1⟩, ⟨998, 100000, 115000, 1⟩, ⟨999, 100000, 120000, 1⟩, ⟨1000, 100000, 125000, 1⟩,
  ⟨1001, 100000, 130000, 1⟩, ⟨1002, 100000, 135000, 1⟩, ⟨1003, 100000, 140000, 1⟩, ⟨1004, 100000, 145000, 1⟩, ⟨1005, 100000, 150000, 1⟩,
  ⟨1006, 100000, 155000, 1⟩, ⟨1007, 100000, 160000, 1⟩, ⟨1008, 100000, 165000, 1⟩, ⟨1009, 100000, 170000, 1⟩, ⟨1010, 100000, 175000, 1⟩,
  ⟨1011, 100000, 180000, 1⟩, ⟨1012, 100000, 185000, 1⟩, ⟨1013, 100000, 190000, 1⟩, ⟨1014, 100000, 195000, 1⟩, ⟨1015, 100000, 200000, 1⟩,
  ⟨1016, 100000, 205000, 1⟩, ⟨1017, 100000, 210000, 1⟩, ⟨1018, 100000, 215000, 1⟩, ⟨1019, 100000, 220000, 1⟩, ⟨1020, 100000, 225000, 1⟩,
  ⟨1021, 100000, 230000, 1⟩, ⟨1022, 100000, 235000, 1⟩, ⟨1023, 100000, 240000, 1⟩, ⟨1024, 100000, 245000, 1⟩, ⟨1025, 100000, 250000, 1⟩,
  ⟨1026, 100000, 255000, 1⟩, ⟨1027, 100000, 260000, 1⟩, ⟨1028, 100000, 265000, 1⟩, ⟨1029, 100000, 270000, 1⟩, ⟨1030, 100000, 275000, 1⟩,
  ⟨1031, 100000, 280000, 1⟩, ⟨1032, 100000, 285000, 1⟩, ⟨1033, 100000, 290000, 1⟩, ⟨1034, 100000, 295000, 1⟩, ⟨1035, 100000, 300000, 1⟩,
  ⟨1036, 110000, 0, 1⟩, ⟨1037, 110000, 100, 1⟩, ⟨1038, 110000, 500, 1⟩, ⟨1039, 110000, 1000, 1⟩, ⟨1040, 110000, 2000, 1⟩,
  ⟨1041, 110000, 3000, 1⟩, ⟨1042, 110000, 4000, 1⟩, ⟨1043, 110000, 5000, 1⟩, ⟨1044, 110000, 6000, 1⟩, ⟨1045, 110000, 7000, 1⟩,
  ⟨1046, 110000, 8000, 1⟩, ⟨1047, 110000, 9000, 1⟩, ⟨1048, 110000, 10000, 1⟩, ⟨1049, 110000, 11000, 1⟩, ⟨1050, 110000, 12000, 1⟩]

/-- `fileDecoder.csv`:1052-1121 -/
def decoderChunk15 : List DecRow := [
  ⟨1051, 110000, 13000, 1⟩, ⟨1052, 110000, 14000, 1⟩, ⟨1053, 110000, 15000, 1⟩, ⟨1054, 110000, 16000, 1⟩, ⟨1055, 110000, 17000, 1⟩,
  ⟨1056, 110000, 18000, 1⟩, ⟨1057, 110000, 19000, 1⟩, ⟨1058, 110000, 20000, 1⟩, ⟨1059, 110000, 22000, 1⟩, ⟨1060, 110000, 24000, 1⟩,
  ⟨1061, 110000, 26000, 1⟩, ⟨1062, 110000, 28000, 1⟩, ⟨1063, 110000, 30000, 1⟩, ⟨1064, 110000, 32000, 1⟩, ⟨1065, 110000, 34000, 1⟩,
  ⟨1066, 110000, 36000, 1⟩, ⟨1067, 110000, 38000, 1⟩, ⟨1068, 110000, 40000, 1⟩, ⟨1069, 110000, 42000, 1⟩, ⟨1070, 110000, 44000, 1⟩,
  ⟨1071, 110000, 46000, 1⟩, ⟨1072, 110000, 48000, 1⟩, ⟨1073, 110000, 50000, 1⟩, ⟨1074, 110000, 52000, 1⟩, ⟨1075, 110000, 54000, 1⟩,
  ⟨1076, 110000, 56000, 1⟩, ⟨1077, 110000, 58000, 1⟩, ⟨1078, 110000, 60000, 1⟩, ⟨1079, 110000, 62000, 1⟩, ⟨1080, 110000, 64000, 1⟩,
  ⟨1081, 110000, 66000, 1⟩, ⟨1082, 110000, 68000, 1⟩, ⟨1083, 110000, 70000, 1⟩, ⟨1084, 110000, 72000, 1⟩, ⟨1085, 110000, 74000, 1⟩,
  ⟨1086, 110000, 76000, 1⟩, ⟨1087, 110000, 78000, 1⟩, ⟨1088, 110000, 80000, 1⟩, ⟨1089, 110000, 85000, 1⟩, ⟨1090, 110000, 90000, 1⟩,
  ⟨1091, 110000, 95000, 1⟩, ⟨1092, 110000, 100000, 1⟩, ⟨1093, 110000, 105000, 1⟩, ⟨1094, 110000, 110000, 1⟩, ⟨1095, 110000, 115000, 1⟩,
  ⟨1096, 110000, 120000, 1⟩, ⟨1097, 110000, 125000, 1⟩, ⟨1098, 110000, 130000, 1⟩, ⟨1099, 110000, 135000, 1⟩, ⟨1100, 110000, 140000, 1⟩,
  ⟨1101, 110000, 145000, 1⟩, ⟨1102, 110000, 150000, 1⟩, ⟨1103, 110000, 155000, 1⟩, ⟨1104, 110000, 160000, 1⟩, ⟨1105, 110000, 165000, 1⟩,
  ⟨1106, 110000, 170000, 1⟩, ⟨1107, 110000, 175000, 1⟩, ⟨1108, 110000, 180000, 1⟩, ⟨1109, 110000, 185000, 1⟩, ⟨1110, 110000, 190000, 1⟩,
  ⟨1111, 110000, 195000, 1⟩, ⟨1112, 110000, 200000, 1⟩, ⟨1113, 110000, 205000, 1⟩, ⟨1114, 110000, 210000, 1⟩, ⟨1115, 110000, 215000, 1⟩,
  ⟨1116, 110000, 220000, 1⟩, ⟨1117, 110000, 225000, 1⟩, ⟨1118, 110000, 230000, 1⟩, ⟨1119, 110000, 235000, 1⟩, ⟨1120, 110000, 240000, 1⟩]

/-- `fileDecoder.csv`:1122-1191 -/
def decoderChunk16 : List DecRow := [
  ⟨1121, 110000, 245000, 1⟩, ⟨1122, 110000, 250000, 1⟩, ⟨1123, 110000, 255000, 1⟩, ⟨1124, 110000, 260000, 1⟩, ⟨1125, 110000, 265000, 1⟩,
  ⟨1126, 110000, 270000, 1⟩, ⟨1127, 110000, 275000, 1⟩, ⟨1128, 110000, 280000, 1⟩, ⟨1129, 110000, 285000, 1⟩, ⟨1130, 110000, 290000, 1⟩,
  ⟨1131, 110000, 295000, 1⟩, ⟨1132, 110000, 300000, 1⟩, ⟨1133, 120000, 0, 1⟩, ⟨1134, 120000, 100, 1⟩, ⟨1135, 120000, 500, 1⟩,
  ⟨1136, 120000, 1000, 1⟩, ⟨1137, 120000, 2000, 1⟩, ⟨1138, 120000, 3000, 1⟩, ⟨1139, 120000, 4000, 1⟩, ⟨1140, 120000, 5000, 1⟩,
  ⟨1141, 120000, 6000, 1⟩, ⟨1142, 120000, 7000, 1⟩, ⟨1143, 120000, 8000, 1⟩, ⟨1144, 120000, 9000, 1⟩, ⟨1145, 120000, 10000, 1⟩,
  ⟨1146, 120000, 11000, 1⟩, ⟨1147, 120000, 12000, 1⟩, ⟨1148, 120000, 13000, 1⟩, ⟨1149, 120000, 14000, 1⟩, ⟨1150, 120000, 15000, 1⟩,
  ⟨1151, 120000, 16000, 1⟩, ⟨1152, 120000, 17000, 1⟩, ⟨1153, 120000, 18000, 1⟩, ⟨1154, 120000, 19000, 1⟩, ⟨1155, 120000, 20000, 1⟩,
  ⟨1156, 120000, 22000, 1⟩, ⟨1157, 120000, 24000, 1⟩, ⟨1158, 120000, 26000, 1⟩, ⟨1159, 120000, 28000, 1⟩, ⟨1160, 120000, 30000, 1⟩,
  ⟨1161, 120000, 32000, 1⟩, ⟨1162, 120000, 34000, 1⟩, ⟨1163, 120000, 36000, 1⟩, ⟨1164, 120000, 38000, 1⟩, ⟨1165, 120000, 40000, 1⟩,
  ⟨1166, 120000, 42000, 1⟩, ⟨1167, 120000, 44000, 1⟩, ⟨1168, 120000, 46000, 1⟩, ⟨1169, 120000, 48000, 1⟩, ⟨1170, 120000, 50000, 1⟩,
  ⟨1171, 120000, 52000, 1⟩, ⟨1172, 120000, 54000, 1⟩, ⟨1173, 120000, 56000, 1⟩, ⟨1174, 120000, 58000, 1⟩, ⟨1175, 120000, 60000, 1⟩,
  ⟨1176, 120000, 62000, 1⟩, ⟨1177, 120000, 64000, 1⟩, ⟨1178, 120000, 66000, 1⟩, ⟨1179, 120000, 68000, 1⟩, ⟨1180, 120000, 70000, 1⟩,
  ⟨1181, 120000, 72000, 1⟩, ⟨1182, 120000, 74000, 1⟩, ⟨1183, 120000, 76000, 1⟩, ⟨1184, 120000, 78000, 1⟩, ⟨1185, 120000, 80000, 1⟩,
  ⟨1186, 120000, 85000, 1⟩, ⟨1187, 120000, 90000, 1⟩, ⟨1188, 120000, 95000, 1⟩, ⟨1189, 120000, 100000, 1⟩, ⟨1190, 120000, 105000, 1⟩]

/-- `fileDecoder.csv`:1192-1261 -/
def decoderChunk17 : List DecRow := [
  ⟨1191, 120000, 110000, 1⟩, ⟨1192, 120000, 115000, 1⟩, ⟨1193, 120000, 120000, 1⟩, ⟨1194, 120000, 125000, 1⟩, ⟨1195, 120000, 130000, 1⟩,
  ⟨1196, 120000, 135000, 1⟩, ⟨1197, 120000, 140000, 1⟩, ⟨1198, 120000, 145000, 1⟩, ⟨1199, 120000, 150000, 1⟩, ⟨1200, 120000, 155000, 1⟩,
  ⟨1201, 120000, 160000, 1⟩, ⟨1202, 120000, 165000, 1⟩, ⟨1203, 120000, 170000, 1⟩, ⟨1204, 120000, 175000, 1⟩, ⟨1205, 120000, 180000, 1⟩,
  ⟨1206, 120000, 185000, 1⟩, ⟨1207, 120000, 190000, 1⟩, ⟨1208, 120000, 195000, 1⟩, ⟨1209, 120000, 200000, 1⟩, ⟨1210, 120000, 205000, 1⟩,
  ⟨1211, 120000, 210000, 1⟩, ⟨1212, 120000, 215000, 1⟩, ⟨1213, 120000, 220000, 1⟩, ⟨1214, 120000, 225000, 1⟩, ⟨1215, 120000, 230000, 1⟩,
  ⟨1216, 120000, 235000, 1⟩, ⟨1217, 120000, 240000, 1⟩, ⟨1218, 120000, 245000, 1⟩, ⟨1219, 120000, 250000, 1⟩, ⟨1220, 120000, 255000, 1⟩,
  ⟨1221, 120000, 260000, 1⟩, ⟨1222, 120000, 265000, 1⟩, ⟨1223, 120000, 270000, 1⟩, ⟨1224, 120000, 275000, 1⟩, ⟨1225, 120000, 280000, 1⟩,
  ⟨1226, 120000, 285000, 1⟩, ⟨1227, 120000, 290000, 1⟩, ⟨1228, 120000, 295000, 1⟩, ⟨1229, 120000, 300000, 1⟩, ⟨1230, 140000, 0, 1⟩,
  ⟨1231, 140000, 100, 1⟩, ⟨1232, 140000, 500, 1⟩, ⟨1233, 140000, 1000, 1⟩, ⟨1234, 140000, 2000, 1⟩, ⟨1235, 140000, 3000, 1⟩,
  ⟨1236, 140000, 4000, 1⟩, ⟨1237, 140000, 5000, 1⟩, ⟨1238, 140000, 6000, 1⟩, ⟨1239, 140000, 7000, 1⟩, ⟨1240, 140000, 8000, 1⟩,
  ⟨1241, 140000, 9000, 1⟩, ⟨1242, 140000, 10000, 1⟩, ⟨1243, 140000, 11000, 1⟩, ⟨1244, 140000, 12000, 1⟩, ⟨1245, 140000, 13000, 1⟩,
  ⟨1246, 140000, 14000, 1⟩, ⟨1247, 140000, 15000, 1⟩, ⟨1248, 140000, 16000, 1⟩, ⟨1249, 140000, 17000, 1⟩, ⟨1250, 140000, 18000, 1⟩,
  ⟨1251, 140000, 19000, 1⟩, ⟨1252, 140000, 20000, 1⟩, ⟨1253, 140000, 22000, 1⟩, ⟨1254, 140000, 24000, 1⟩, ⟨1255, 140000, 26000, 1⟩,
  ⟨1256, 140000, 28000, 1⟩, ⟨1257, 140000, 30000, 1⟩, ⟨1258, 140000, 32000, 1⟩, ⟨1259, 140000, 34000, 1⟩, ⟨1260, 140000, 36000, 1⟩]

/-- `fileDecoder.csv`:1262-1331 -/
def decoderChunk18 : List DecRow := [
  ⟨1261, 140000, 38000, 1⟩, ⟨1262, 140000, 40000, 1⟩, ⟨1263, 140000, 42000, 1⟩, ⟨1264, 140000, 44000, 1⟩, ⟨1265, 140000, 46000, 1⟩,
  ⟨1266, 140000, 48000, 1⟩, ⟨1267, 140000, 50000, 1⟩, ⟨1268, 140000, 52000, 1⟩, ⟨1269, 140000, 54000, 1⟩, ⟨1270, 140000, 56000, 1⟩,
  ⟨1271, 140000, 58000, 1⟩, ⟨1272, 140000, 60000, 1⟩, ⟨1273, 140000, 62000, 1⟩, ⟨1274, 140000, 64000, 1⟩, ⟨1275, 140000, 66000, 1⟩,
  ⟨1276, 140000, 68000, 1⟩, ⟨1277, 140000, 70000, 1⟩, ⟨1278, 140000, 72000, 1⟩, ⟨1279, 140000, 74000, 1⟩, ⟨1280, 140000, 76000, 1⟩,
  ⟨1281, 140000, 78000, 1⟩, ⟨1282, 140000, 80000, 1⟩, ⟨1283, 140000, 85000, 1⟩, ⟨1284, 140000, 90000, 1⟩, ⟨1285, 140000, 95000, 1⟩,
  ⟨1286, 140000, 100000, 1⟩, ⟨1287, 140000, 105000, 1⟩, ⟨1288, 140000, 110000, 1⟩, ⟨1289, 140000, 115000, 1⟩, ⟨1290, 140000, 120000, 1⟩,
  ⟨1291, 140000, 125000, 1⟩, ⟨1292, 140000, 130000, 1⟩, ⟨1293, 140000, 135000, 1⟩, ⟨1294, 140000, 140000, 1⟩, ⟨1295, 140000, 145000, 1⟩,
  ⟨1296, 140000, 150000, 1⟩, ⟨1297, 140000, 155000, 1⟩, ⟨1298, 140000, 160000, 1⟩, ⟨1299, 140000, 165000, 1⟩, ⟨1300, 140000, 170000, 1⟩,
  ⟨1301, 140000, 175000, 1⟩, ⟨1302, 140000, 180000, 1⟩, ⟨1303, 140000, 185000, 1⟩, ⟨1304, 140000, 190000, 1⟩, ⟨1305, 140000, 195000, 1⟩,
  ⟨1306, 140000, 200000, 1⟩, ⟨1307, 140000, 205000, 1⟩, ⟨1308, 140000, 210000, 1⟩, ⟨1309, 140000, 215000, 1⟩, ⟨1310, 140000, 220000, 1⟩,
  ⟨1311, 140000, 225000, 1⟩, ⟨1312, 140000, 230000, 1⟩, ⟨1313, 140000, 235000, 1⟩, ⟨1314, 140000, 240000, 1⟩, ⟨1315, 140000, 245000, 1⟩,
  ⟨1316, 140000, 250000, 1⟩, ⟨1317, 140000, 255000, 1⟩, ⟨1318, 140000, 260000, 1⟩, ⟨1319, 140000, 265000, 1⟩, ⟨1320, 140000, 270000, 1⟩,
  ⟨1321, 140000, 275000, 1⟩, ⟨1322, 140000, 280000, 1⟩, ⟨1323, 140000, 285000, 1⟩, ⟨1324, 140000, 290000, 1⟩, ⟨1325, 140000, 295000, 1⟩,
  ⟨1326, 140000, 300000, 1⟩, ⟨1327, 160000, 0, 1⟩, ⟨1328, 160000, 100, 1⟩, ⟨1329, 160000, 500, 1⟩, ⟨1330, 160000, 1000, 1⟩]

/-- `fileDecoder.csv`:1332-1401 -/
def decoderChunk19 : List DecRow := [
  ⟨1331, 160000, 2000, 1⟩, ⟨1332, 160000, 3000, 1⟩, ⟨1333, 160000, 4000, 1⟩, ⟨1334, 160000, 5000, 1⟩, ⟨1335, 160000, 6000, 1⟩,
  ⟨1336, 160000, 7000, 1⟩, ⟨1337, 160000, 8000, 1⟩, ⟨1338, 160000, 9000, 1⟩, ⟨1339, 160000, 10000, 1⟩, ⟨1340, 160000, 11000, 1⟩,
  ⟨1341, 160000, 12000, 1⟩, ⟨1342, 160000, 13000, 1⟩, ⟨1343, 160000, 14000, 1⟩, ⟨1344, 160000, 15000, 1⟩, ⟨1345, 160000, 16000, 1⟩,
  ⟨1346, 160000, 17000, 1⟩, ⟨1347, 160000, 18000, 1⟩, ⟨1348, 160000, 19000, 1⟩, ⟨1349, 160000, 20000, 1⟩, ⟨1350, 160000, 22000, 1⟩,
  ⟨1351, 160000, 24000, 1⟩, ⟨1352, 160000, 26000, 1⟩, ⟨1353, 160000, 28000, 1⟩, ⟨1354, 160000, 30000, 1⟩, ⟨1355, 160000, 32000, 1⟩,
  ⟨1356, 160000, 34000, 1⟩, ⟨1357, 160000, 36000, 1⟩, ⟨1358, 160000, 38000, 1⟩, ⟨1359, 160000, 40000, 1⟩, ⟨1360, 160000, 42000, 1⟩,
  ⟨1361, 160000, 44000, 1⟩, ⟨1362, 160000, 46000, 1⟩, ⟨1363, 160000, 48000, 1⟩, ⟨1364, 160000, 50000, 1⟩, ⟨1365, 160000, 52000, 1⟩,
  ⟨1366, 160000, 54000, 1⟩, ⟨1367, 160000, 56000, 1⟩, ⟨1368, 160000, 58000, 1⟩, ⟨1369, 160000, 60000, 1⟩, ⟨1370, 160000, 62000, 1⟩,
  ⟨1371, 160000, 64000, 1⟩, ⟨1372, 160000, 66000, 1⟩, ⟨1373, 160000, 68000, 1⟩, ⟨1374, 160000, 70000, 1⟩, ⟨1375, 160000, 72000, 1⟩,
  ⟨1376, 160000, 74000, 1⟩, ⟨1377, 160000, 76000, 1⟩, ⟨1378, 160000, 78000, 1⟩, ⟨1379, 160000, 80000, 1⟩, ⟨1380, 160000, 85000, 1⟩,
  ⟨1381, 160000, 90000, 1⟩, ⟨1382, 160000, 95000, 1⟩, ⟨1383, 160000, 100000, 1⟩, ⟨1384, 160000, 105000, 1⟩, ⟨1385, 160000, 110000, 1⟩,
  ⟨1386, 160000, 115000, 1⟩, ⟨1387, 160000, 120000, 1⟩, ⟨1388, 160000, 125000, 1⟩, ⟨1389, 160000, 130000, 1⟩, ⟨1390, 160000, 135000, 1⟩,
  ⟨1391, 160000, 140000, 1⟩, ⟨1392, 160000, 145000, 1⟩, ⟨1393, 160000, 150000, 1⟩, ⟨1394, 160000, 155000, 1⟩, ⟨1395, 160000, 160000, 1⟩,
  ⟨1396, 160000, 165000, 1⟩, ⟨1397, 160000, 170000, 1⟩, ⟨1398, 160000, 175000, 1⟩, ⟨1399, 160000, 180000, 1⟩, ⟨1400, 160000, 185000, 1⟩]

/-- `fileDecoder.csv`:1402-1471 -/
def decoderChunk20 : List DecRow := [
  ⟨1401, 160000, 190000, 1⟩, ⟨1402, 160000, 195000, 1⟩, ⟨1403, 160000, 200000, 1⟩, ⟨1404, 160000, 205000, 1⟩, ⟨1405, 160000, 210000, 1⟩,
  ⟨1406, 160000, 215000, 1⟩, ⟨1407, 160000, 220000, 1⟩, ⟨1408, 160000, 225000, 1⟩, ⟨1409, 160000, 230000, 1⟩, ⟨1410, 160000, 235000, 1⟩,
  ⟨1411, 160000, 240000, 1⟩, ⟨1412, 160000, 245000, 1⟩, ⟨1413, 160000, 250000, 1⟩, ⟨1414, 160000, 255000, 1⟩, ⟨1415, 160000, 260000, 1⟩,
  ⟨1416, 160000, 265000, 1⟩, ⟨1417, 160000, 270000, 1⟩, ⟨1418, 160000, 275000, 1⟩, ⟨1419, 160000, 280000, 1⟩, ⟨1420, 160000, 285000, 1⟩,
  ⟨1421, 160000, 290000, 1⟩, ⟨1422, 160000, 295000, 1⟩, ⟨1423, 160000, 300000, 1⟩, ⟨1424, 180000, 0, 1⟩, ⟨1425, 180000, 100, 1⟩,
  ⟨1426, 180000, 500, 1⟩, ⟨1427, 180000, 1000, 1⟩, ⟨1428, 180000, 2000, 1⟩, ⟨1429, 180000, 3000, 1⟩, ⟨1430, 180000, 4000, 1⟩,
  ⟨1431, 180000, 5000, 1⟩, ⟨1432, 180000, 6000, 1⟩, ⟨1433, 180000, 7000, 1⟩, ⟨1434, 180000, 8000, 1⟩, ⟨1435, 180000, 9000, 1⟩,
  ⟨1436, 180000, 10000, 1⟩, ⟨1437, 180000, 11000, 1⟩, ⟨1438, 180000, 12000, 1⟩, ⟨1439, 180000, 13000, 1⟩, ⟨1440, 180000, 14000, 1⟩,
  ⟨1441, 180000, 15000, 1⟩, ⟨1442, 180000, 16000, 1⟩, ⟨1443, 180000, 17000, 1⟩, ⟨1444, 180000, 18000, 1⟩, ⟨1445, 180000, 19000, 1⟩,
  ⟨1446, 180000, 20000, 1⟩, ⟨1447, 180000, 22000, 1⟩, ⟨1448, 180000, 24000, 1⟩, ⟨1449, 180000, 26000, 1⟩, ⟨1450, 180000, 28000, 1⟩,
  ⟨1451, 180000, 30000, 1⟩, ⟨1452, 180000, 32000, 1⟩, ⟨1453, 180000, 34000, 1⟩, ⟨1454, 180000, 36000, 1⟩, ⟨1455, 180000, 38000, 1⟩,
  ⟨1456, 180000, 40000, 1⟩, ⟨1457, 180000, 42000, 1⟩, ⟨1458, 180000, 44000, 1⟩, ⟨1459, 180000, 46000, 1⟩, ⟨1460, 180000, 48000, 1⟩,
  ⟨1461, 180000, 50000, 1⟩, ⟨1462, 180000, 52000, 1⟩, ⟨1463, 180000, 54000, 1⟩, ⟨1464, 180000, 56000, 1⟩, ⟨1465, 180000, 58000, 1⟩,
  ⟨1466, 180000, 60000, 1⟩, ⟨1467, 180000, 62000, 1⟩, ⟨1468, 180000, 64000, 1⟩, ⟨1469, 180000, 66000, 1⟩, ⟨1470, 180000, 68000, 1⟩]

/-- `fileDecoder.csv`:1472-1541 -/
def decoderChunk21 : List DecRow := [
  ⟨1471, 180000, 70000, 1⟩, ⟨1472, 180000, 72000, 1⟩, ⟨1473, 180000, 74000, 1⟩, ⟨1474, 180000, 76000, 1⟩, ⟨1475, 180000, 78000, 1⟩,
  ⟨1476, 180000, 80000, 1⟩, ⟨1477, 180000, 85000, 1⟩, ⟨1478, 180000, 90000, 1⟩, ⟨1479, 180000, 95000, 1⟩, ⟨1480, 180000, 100000, 1⟩,
  ⟨1481, 180000, 105000, 1⟩, ⟨1482, 180000, 110000, 1⟩, ⟨1483, 180000, 115000, 1⟩, ⟨1484, 180000, 120000, 1⟩, ⟨1485, 180000, 125000, 1⟩,
  ⟨1486, 180000, 130000, 1⟩, ⟨1487, 180000, 135000, 1⟩, ⟨1488, 180000, 140000, 1⟩, ⟨1489, 180000, 145000, 1⟩, ⟨1490, 180000, 150000, 1⟩,
  ⟨1491, 180000, 155000, 1⟩, ⟨1492, 180000, 160000, 1⟩, ⟨1493, 180000, 165000, 1⟩, ⟨1494, 180000, 170000, 1⟩, ⟨1495, 180000, 175000, 1⟩,
  ⟨1496, 180000, 180000, 1⟩, ⟨1497, 180000, 185000, 1⟩, ⟨1498, 180000, 190000, 1⟩, ⟨1499, 180000, 195000, 1⟩, ⟨1500, 180000, 200000, 1⟩,
  ⟨1501, 180000, 205000, 1⟩, ⟨1502, 180000, 210000, 1⟩, ⟨1503, 180000, 215000, 1⟩, ⟨1504, 180000, 220000, 1⟩, ⟨1505, 180000, 225000, 1⟩,
  ⟨1506, 180000, 230000, 1⟩, ⟨1507, 180000, 235000, 1⟩, ⟨1508, 180000, 240000, 1⟩, ⟨1509, 180000, 245000, 1⟩, ⟨1510, 180000, 250000, 1⟩,
  ⟨1511, 180000, 255000, 1⟩, ⟨1512, 180000, 260000, 1⟩, ⟨1513, 180000, 265000, 1⟩, ⟨1514, 180000, 270000, 1⟩, ⟨1515, 180000, 275000, 1⟩,
  ⟨1516, 180000, 280000, 1⟩, ⟨1517, 180000, 285000, 1⟩, ⟨1518, 180000, 290000, 1⟩, ⟨1519, 180000, 295000, 1⟩, ⟨1520, 180000, 300000, 1⟩,
  ⟨1521, 200000, 0, 1⟩, ⟨1522, 200000, 100, 1⟩, ⟨1523, 200000, 500, 1⟩, ⟨1524, 200000, 1000, 1⟩, ⟨1525, 200000, 2000, 1⟩,
  ⟨1526, 200000, 3000, 1⟩, ⟨1527, 200000, 4000, 1⟩, ⟨1528, 200000, 5000, 1⟩, ⟨1529, 200000, 6000, 1⟩, ⟨1530, 200000, 7000, 1⟩,
  ⟨1531, 200000, 8000, 1⟩, ⟨1532, 200000, 9000, 1⟩, ⟨1533, 200000, 10000, 1⟩, ⟨1534, 200000, 11000, 1⟩, ⟨1535, 200000, 12000, 1⟩,
  ⟨1536, 200000, 13000, 1⟩, ⟨1537, 200000, 14000, 1⟩, ⟨1538, 200000, 15000, 1⟩, ⟨1539, 200000, 16000, 1⟩, ⟨1540, 200000, 17000, 1⟩]

/-- `fileDecoder.csv`:1542-1611 -/
def decoderChunk22 : List DecRow := [
  ⟨1541, 200000, 18000, 1⟩, ⟨1542, 200000, 19000, 1⟩, ⟨1543, 200000, 20000, 1⟩, ⟨1544, 200000, 22000, 1⟩, ⟨1545, 200000, 24000, 1⟩,
  ⟨1546, 200000, 26000, 1⟩, ⟨1547, 200000, 28000, 1⟩, ⟨1548, 200000, 30000, 1⟩, ⟨1549, 200000, 32000, 1⟩, ⟨1550, 200000, 34000, 1⟩,
  ⟨1551, 200000, 36000, 1⟩, ⟨1552, 200000, 38000, 1⟩, ⟨1553, 200000, 40000, 1⟩, ⟨1554, 200000, 42000, 1⟩, ⟨1555, 200000, 44000, 1⟩,
  ⟨1556, 200000, 46000, 1⟩, ⟨1557, 200000, 48000, 1⟩, ⟨1558, 200000, 50000, 1⟩, ⟨1559, 200000, 52000, 1⟩, ⟨1560, 200000, 54000, 1⟩,
  ⟨1561, 200000, 56000, 1⟩, ⟨1562, 200000, 58000, 1⟩, ⟨1563, 200000, 60000, 1⟩, ⟨1564, 200000, 62000, 1⟩, ⟨1565, 200000, 64000, 1⟩,
  ⟨1566, 200000, 66000, 1⟩, ⟨1567, 200000, 68000, 1⟩, ⟨1568, 200000, 70000, 1⟩, ⟨1569, 200000, 72000, 1⟩, ⟨1570, 200000, 74000, 1⟩,
  ⟨1571, 200000, 76000, 1⟩, ⟨1572, 200000, 78000, 1⟩, ⟨1573, 200000, 80000, 1⟩, ⟨1574, 200000, 85000, 1⟩, ⟨1575, 200000, 90000, 1⟩,
  ⟨1576, 200000, 95000, 1⟩, ⟨1577, 200000, 100000, 1⟩, ⟨1578, 200000, 105000, 1⟩, ⟨1579, 200000, 110000, 1⟩, ⟨1580, 200000, 115000, 1⟩,
  ⟨1581, 200000, 120000, 1⟩, ⟨1582, 200000, 125000, 1⟩, ⟨1583, 200000, 130000, 1⟩, ⟨1584, 200000, 135000, 1⟩, ⟨1585, 200000, 140000, 1⟩,
  ⟨1586, 200000, 145000, 1⟩, ⟨1587, 200000, 150000, 1⟩, ⟨1588, 200000, 155000, 1⟩, ⟨1589, 200000, 160000, 1⟩, ⟨1590, 200000, 165000, 1⟩,
  ⟨1591, 200000, 170000, 1⟩, ⟨1592, 200000, 175000, 1⟩, ⟨1593, 200000, 180000, 1⟩, ⟨1594, 200000, 185000, 1⟩, ⟨1595, 200000, 190000, 1⟩,
  ⟨1596, 200000, 195000, 1⟩, ⟨1597, 200000, 200000, 1⟩, ⟨1598, 200000, 205000, 1⟩, ⟨1599, 200000, 210000, 1⟩, ⟨1600, 200000, 215000, 1⟩,
  ⟨1601, 200000, 220000, 1⟩, ⟨1602, 200000, 225000, 1⟩, ⟨1603, 200000, 230000, 1⟩, ⟨1604, 200000, 235000, 1⟩, ⟨1605, 200000, 240000, 1⟩,
  ⟨1606, 200000, 245000, 1⟩, ⟨1607, 200000, 250000, 1⟩, ⟨1608, 200000, 255000, 1⟩, ⟨1609, 200000, 260000, 1⟩, ⟨1610, 200000, 265000, 1⟩]

/-- `fileDecoder.csv`:1612-1681 -/
def decoderChunk23 : List DecRow := [
  ⟨1611, 200000, 270000, 1⟩, ⟨1612, 200000, 275000, 1⟩, ⟨1613, 200000, 280000, 1⟩, ⟨1614, 200000, 285000, 1⟩, ⟨1615, 200000, 290000, 1⟩,
  ⟨1616, 200000, 295000, 1⟩, ⟨1617, 200000, 300000, 1⟩, ⟨1618, 20, 0, 2⟩, ⟨1619, 20, 100, 2⟩, ⟨1620, 20, 500, 2⟩,
  ⟨1621, 20, 1000, 2⟩, ⟨1622, 20, 2000, 2⟩, ⟨1623, 20, 3000, 2⟩, ⟨1624, 20, 4000, 2⟩, ⟨1625, 20, 5000, 2⟩,
  ⟨1626, 325, 0, 2⟩, ⟨1627, 325, 100, 2⟩, ⟨1628, 325, 500, 2⟩, ⟨1629, 325, 1000, 2⟩, ⟨1630, 325, 2000, 2⟩,
  ⟨1631, 325, 3000, 2⟩, ⟨1632, 325, 4000, 2⟩, ⟨1633, 325, 5000, 2⟩, ⟨1634, 325, 6000, 2⟩, ⟨1635, 325, 7000, 2⟩,
  ⟨1636, 325, 8000, 2⟩, ⟨1637, 325, 9000, 2⟩, ⟨1638, 325, 10000, 2⟩, ⟨1639, 325, 11000, 2⟩, ⟨1640, 325, 12000, 2⟩,
  ⟨1641, 325, 13000, 2⟩, ⟨1642, 325, 14000, 2⟩, ⟨1643, 325, 15000, 2⟩, ⟨1644, 325, 16000, 2⟩, ⟨1645, 325, 17000, 2⟩,
  ⟨1646, 325, 18000, 2⟩, ⟨1647, 325, 19000, 2⟩, ⟨1648, 325, 20000, 2⟩, ⟨1649, 750, 0, 2⟩, ⟨1650, 750, 100, 2⟩,
  ⟨1651, 750, 500, 2⟩, ⟨1652, 750, 1000, 2⟩, ⟨1653, 750, 2000, 2⟩, ⟨1654, 750, 3000, 2⟩, ⟨1655, 750, 4000, 2⟩,
  ⟨1656, 750, 5000, 2⟩, ⟨1657, 750, 6000, 2⟩, ⟨1658, 750, 7000, 2⟩, ⟨1659, 750, 8000, 2⟩, ⟨1660, 750, 9000, 2⟩,
  ⟨1661, 750, 10000, 2⟩, ⟨1662, 750, 11000, 2⟩, ⟨1663, 750, 12000, 2⟩, ⟨1664, 750, 13000, 2⟩, ⟨1665, 750, 14000, 2⟩,
  ⟨1666, 750, 15000, 2⟩, ⟨1667, 750, 16000, 2⟩, ⟨1668, 750, 17000, 2⟩, ⟨1669, 750, 18000, 2⟩, ⟨1670, 750, 19000, 2⟩,
  ⟨1671, 750, 20000, 2⟩, ⟨1672, 750, 22000, 2⟩, ⟨1673, 750, 24000, 2⟩, ⟨1674, 750, 26000, 2⟩, ⟨1675, 750, 28000, 2⟩,
  ⟨1676, 750, 30000, 2⟩, ⟨1677, 1500, 0, 2⟩, ⟨1678, 1500, 100, 2⟩, ⟨1679, 1500, 500, 2⟩, ⟨1680, 1500, 1000, 2⟩]

/-- `fileDecoder.csv`:1682-1751 -/
def decoderChunk24 : List DecRow := [
  ⟨1681, 1500, 2000, 2⟩, ⟨1682, 1500, 3000, 2⟩, ⟨1683, 1500, 4000, 2⟩, ⟨1684, 1500, 5000, 2⟩, ⟨1685, 1500, 6000, 2⟩,
  ⟨1686, 1500, 7000, 2⟩, ⟨1687, 1500, 8000, 2⟩, ⟨1688, 1500, 9000, 2⟩, ⟨1689, 1500, 10000, 2⟩, ⟨1690, 1500, 11000, 2⟩,
  ⟨1691, 1500, 12000, 2⟩, ⟨1692, 1500, 13000, 2⟩, ⟨1693, 1500, 14000, 2⟩, ⟨1694, 1500, 15000, 2⟩, ⟨1695, 1500, 16000, 2⟩,
  ⟨1696, 1500, 17000, 2⟩, ⟨1697, 1500, 18000, 2⟩, ⟨1698, 1500, 19000, 2⟩, ⟨1699, 1500, 20000, 2⟩, ⟨1700, 1500, 22000, 2⟩,
  ⟨1701, 1500, 24000, 2⟩, ⟨1702, 1500, 26000, 2⟩, ⟨1703, 1500, 28000, 2⟩, ⟨1704, 1500, 30000, 2⟩, ⟨1705, 1500, 32000, 2⟩,
  ⟨1706, 1500, 34000, 2⟩, ⟨1707, 1500, 36000, 2⟩, ⟨1708, 1500, 38000, 2⟩, ⟨1709, 1500, 40000, 2⟩, ⟨1710, 1500, 42000, 2⟩,
  ⟨1711, 2250, 0, 2⟩, ⟨1712, 2250, 100, 2⟩, ⟨1713, 2250, 500, 2⟩, ⟨1714, 2250, 1000, 2⟩, ⟨1715, 2250, 2000, 2⟩,
  ⟨1716, 2250, 3000, 2⟩, ⟨1717, 2250, 4000, 2⟩, ⟨1718, 2250, 5000, 2⟩, ⟨1719, 2250, 6000, 2⟩, ⟨1720, 2250, 7000, 2⟩,
  ⟨1721, 2250, 8000, 2⟩, ⟨1722, 2250, 9000, 2⟩, ⟨1723, 2250, 10000, 2⟩, ⟨1724, 2250, 11000, 2⟩, ⟨1725, 2250, 12000, 2⟩,
  ⟨1726, 2250, 13000, 2⟩, ⟨1727, 2250, 14000, 2⟩, ⟨1728, 2250, 15000, 2⟩, ⟨1729, 2250, 16000, 2⟩, ⟨1730, 2250, 17000, 2⟩,
  ⟨1731, 2250, 18000, 2⟩, ⟨1732, 2250, 19000, 2⟩, ⟨1733, 2250, 20000, 2⟩, ⟨1734, 2250, 22000, 2⟩, ⟨1735, 2250, 24000, 2⟩,
  ⟨1736, 2250, 26000, 2⟩, ⟨1737, 2250, 28000, 2⟩, ⟨1738, 2250, 30000, 2⟩, ⟨1739, 2250, 32000, 2⟩, ⟨1740, 2250, 34000, 2⟩,
  ⟨1741, 2250, 36000, 2⟩, ⟨1742, 2250, 38000, 2⟩, ⟨1743, 2250, 40000, 2⟩, ⟨1744, 2250, 42000, 2⟩, ⟨1745, 2250, 44000, 2⟩,
  ⟨1746, 2250, 46000, 2⟩, ⟨1747, 2250, 48000, 2⟩, ⟨1748, 2250, 50000, 2⟩, ⟨1749, 2250, 52000, 2⟩, ⟨1750, 5000, 0, 2⟩]

/-- `fileDecoder.csv`:1752-1821 -/
def decoderChunk25 : List DecRow := [
  ⟨1751, 5000, 100, 2⟩, ⟨1752, 5000, 500, 2⟩, ⟨1753, 5000, 1000, 2⟩, ⟨1754, 5000, 2000, 2⟩, ⟨1755, 5000, 3000, 2⟩,
  ⟨1756, 5000, 4000, 2⟩, ⟨1757, 5000, 5000, 2⟩, ⟨1758, 5000, 6000, 2⟩, ⟨1759, 5000, 7000, 2⟩, ⟨1760, 5000, 8000, 2⟩,
  ⟨1761, 5000, 9000, 2⟩, ⟨1762, 5000, 10000, 2⟩, ⟨1763, 5000, 11000, 2⟩, ⟨1764, 5000, 12000, 2⟩, ⟨1765, 5000, 13000, 2⟩,
  ⟨1766, 5000, 14000, 2⟩, ⟨1767, 5000, 15000, 2⟩, ⟨1768, 5000, 16000, 2⟩, ⟨1769, 5000, 17000, 2⟩, ⟨1770, 5000, 18000, 2⟩,
  ⟨1771, 5000, 19000, 2⟩, ⟨1772, 5000, 20000, 2⟩, ⟨1773, 5000, 22000, 2⟩, ⟨1774, 5000, 24000, 2⟩, ⟨1775, 5000, 26000, 2⟩,
  ⟨1776, 5000, 28000, 2⟩, ⟨1777, 5000, 30000, 2⟩, ⟨1778, 5000, 32000, 2⟩, ⟨1779, 5000, 34000, 2⟩, ⟨1780, 5000, 36000, 2⟩,
  ⟨1781, 5000, 38000, 2⟩, ⟨1782, 5000, 40000, 2⟩, ⟨1783, 5000, 42000, 2⟩, ⟨1784, 5000, 44000, 2⟩, ⟨1785, 5000, 46000, 2⟩,
  ⟨1786, 5000, 48000, 2⟩, ⟨1787, 5000, 50000, 2⟩, ⟨1788, 5000, 52000, 2⟩, ⟨1789, 5000, 54000, 2⟩, ⟨1790, 5000, 56000, 2⟩,
  ⟨1791, 5000, 58000, 2⟩, ⟨1792, 5000, 60000, 2⟩, ⟨1793, 5000, 62000, 2⟩, ⟨1794, 5000, 64000, 2⟩, ⟨1795, 5000, 66000, 2⟩,
  ⟨1796, 5000, 68000, 2⟩, ⟨1797, 5000, 70000, 2⟩, ⟨1798, 5000, 72000, 2⟩, ⟨1799, 5000, 74000, 2⟩, ⟨1800, 5000, 76000, 2⟩,
  ⟨1801, 5000, 78000, 2⟩, ⟨1802, 10000, 0, 2⟩, ⟨1803, 10000, 100, 2⟩, ⟨1804, 10000, 500, 2⟩, ⟨1805, 10000, 1000, 2⟩,
  ⟨1806, 10000, 2000, 2⟩, ⟨1807, 10000, 3000, 2⟩, ⟨1808, 10000, 4000, 2⟩, ⟨1809, 10000, 5000, 2⟩, ⟨1810, 10000, 6000, 2⟩,
  ⟨1811, 10000, 7000, 2⟩, ⟨1812, 10000, 8000, 2⟩, ⟨1813, 10000, 9000, 2⟩, ⟨1814, 10000, 10000, 2⟩, ⟨1815, 10000, 11000, 2⟩,
  ⟨1816, 10000, 12000, 2⟩, ⟨1817, 10000, 13000, 2⟩, ⟨1818, 10000, 14000, 2⟩, ⟨1819, 10000, 15000, 2⟩, ⟨1820, 10000, 16000, 2⟩]

/-- `fileDecoder.csv`:1822-1891 -/
def decoderChunk26 : List DecRow := [
  ⟨1821, 10000, 17000, 2⟩, ⟨1822, 10000, 18000, 2⟩, ⟨1823, 10000, 19000, 2⟩, ⟨1824, 10000, 20000, 2⟩, ⟨1825, 10000, 22000, 2⟩,
  ⟨1826, 10000, 24000, 2⟩, ⟨1827, 10000, 26000, 2⟩, ⟨1828, 10000, 28000, 2⟩, ⟨1829, 10000, 30000, 2⟩, ⟨1830, 10000, 32000, 2⟩,
  ⟨1831, 10000, 34000, 2⟩, ⟨1832, 10000, 36000, 2⟩, ⟨1833, 10000, 38000, 2⟩, ⟨1834, 10000, 40000, 2⟩, ⟨1835, 10000, 42000, 2⟩,
  ⟨1836, 10000, 44000, 2⟩, ⟨1837, 10000, 46000, 2⟩, ⟨1838, 10000, 48000, 2⟩, ⟨1839, 10000, 50000, 2⟩, ⟨1840, 10000, 52000, 2⟩,
  ⟨1841, 10000, 54000, 2⟩, ⟨1842, 10000, 56000, 2⟩, ⟨1843, 10000, 58000, 2⟩, ⟨1844, 10000, 60000, 2⟩, ⟨1845, 10000, 62000, 2⟩,
  ⟨1846, 10000, 64000, 2⟩, ⟨1847, 10000, 66000, 2⟩, ⟨1848, 10000, 68000, 2⟩, ⟨1849, 10000, 70000, 2⟩, ⟨1850, 10000, 72000, 2⟩,
  ⟨1851, 10000, 74000, 2⟩, ⟨1852, 10000, 76000, 2⟩, ⟨1853, 10000, 78000, 2⟩, ⟨1854, 10000, 80000, 2⟩, ⟨1855, 10000, 85000, 2⟩,
  ⟨1856, 10000, 90000, 2⟩, ⟨1857, 10000, 95000, 2⟩, ⟨1858, 10000, 100000, 2⟩, ⟨1859, 10000, 105000, 2⟩, ⟨1860, 10000, 110000, 2⟩,
  ⟨1861, 20000, 0, 2⟩, ⟨1862, 20000, 100, 2⟩, ⟨1863, 20000, 500, 2⟩, ⟨1864, 20000, 1000, 2⟩, ⟨1865, 20000, 2000, 2⟩,
  ⟨1866, 20000, 3000, 2⟩, ⟨1867, 20000, 4000, 2⟩, ⟨1868, 20000, 5000, 2⟩, ⟨1869, 20000, 6000, 2⟩, ⟨1870, 20000, 7000, 2⟩,
  ⟨1871, 20000, 8000, 2⟩, ⟨1872, 20000, 9000, 2⟩, ⟨1873, 20000, 10000, 2⟩, ⟨1874, 20000, 11000, 2⟩, ⟨1875, 20000, 12000, 2⟩,
  ⟨1876, 20000, 13000, 2⟩, ⟨1877, 20000, 14000, 2⟩, ⟨1878, 20000, 15000, 2⟩, ⟨1879, 20000, 16000, 2⟩, ⟨1880, 20000, 17000, 2⟩,
  ⟨1881, 20000, 18000, 2⟩, ⟨1882, 20000, 19000, 2⟩, ⟨1883, 20000, 20000, 2⟩, ⟨1884, 20000, 22000, 2⟩, ⟨1885, 20000, 24000, 2⟩,
  ⟨1886, 20000, 26000, 2⟩, ⟨1887, 20000, 28000, 2⟩, ⟨1888, 20000, 30000, 2⟩, ⟨1889, 20000, 32000, 2⟩, ⟨1890, 20000, 34000, 2⟩]

/-- `fileDecoder.csv`:1892-1961 -/
def decoderChunk27 : List DecRow := [
  ⟨1891, 20000, 36000, 2⟩, ⟨1892, 20000, 38000, 2⟩, ⟨1893, 20000, 40000, 2⟩, ⟨1894, 20000, 42000, 2⟩, ⟨1895, 20000, 44000, 2⟩,
  ⟨1896, 20000, 46000, 2⟩, ⟨1897, 20000, 48000, 2⟩, ⟨1898, 20000, 50000, 2⟩, ⟨1899, 20000, 52000, 2⟩, ⟨1900, 20000, 54000, 2⟩,
  ⟨1901, 20000, 56000, 2⟩, ⟨1902, 20000, 58000, 2⟩, ⟨1903, 20000, 60000, 2⟩, ⟨1904, 20000, 62000, 2⟩, ⟨1905, 20000, 64000, 2⟩,
  ⟨1906, 20000, 66000, 2⟩, ⟨1907, 20000, 68000, 2⟩, ⟨1908, 20000, 70000, 2⟩, ⟨1909, 20000, 72000, 2⟩, ⟨1910, 20000, 74000, 2⟩,
  ⟨1911, 20000, 76000, 2⟩, ⟨1912, 20000, 78000, 2⟩, ⟨1913, 20000, 80000, 2⟩, ⟨1914, 20000, 85000, 2⟩, ⟨1915, 20000, 90000, 2⟩,
  ⟨1916, 20000, 95000, 2⟩, ⟨1917, 20000, 100000, 2⟩, ⟨1918, 20000, 105000, 2⟩, ⟨1919, 20000, 110000, 2⟩, ⟨1920, 20000, 115000, 2⟩,
  ⟨1921, 20000, 120000, 2⟩, ⟨1922, 20000, 125000, 2⟩, ⟨1923, 20000, 130000, 2⟩, ⟨1924, 20000, 135000, 2⟩, ⟨1925, 20000, 140000, 2⟩,
  ⟨1926, 20000, 145000, 2⟩, ⟨1927, 20000, 150000, 2⟩, ⟨1928, 20000, 155000, 2⟩, ⟨1929, 30000, 0, 2⟩, ⟨1930, 30000, 100, 2⟩,
  ⟨1931, 30000, 500, 2⟩, ⟨1932, 30000, 1000, 2⟩, ⟨1933, 30000, 2000, 2⟩, ⟨1934, 30000, 3000, 2⟩, ⟨1935, 30000, 4000, 2⟩,
  ⟨1936, 30000, 5000, 2⟩, ⟨1937, 30000, 6000, 2⟩, ⟨1938, 30000, 7000, 2⟩, ⟨1939, 30000, 8000, 2⟩, ⟨1940, 30000, 9000, 2⟩,
  ⟨1941, 30000, 10000, 2⟩, ⟨1942, 30000, 11000, 2⟩, ⟨1943, 30000, 12000, 2⟩, ⟨1944, 30000, 13000, 2⟩, ⟨1945, 30000, 14000, 2⟩,
  ⟨1946, 30000, 15000, 2⟩, ⟨1947, 30000, 16000, 2⟩, ⟨1948, 30000, 17000, 2⟩, ⟨1949, 30000, 18000, 2⟩, ⟨1950, 30000, 19000, 2⟩,
  ⟨1951, 30000, 20000, 2⟩, ⟨1952, 30000, 22000, 2⟩, ⟨1953, 30000, 24000, 2⟩, ⟨1954, 30000, 26000, 2⟩, ⟨1955, 30000, 28000, 2⟩,
  ⟨1956, 30000, 30000, 2⟩, ⟨1957, 30000, 32000, 2⟩, ⟨1958, 30000, 34000, 2⟩, ⟨1959, 30000, 36000, 2⟩, ⟨1960, 30000, 38000, 2⟩]

/-- `fileDecoder.csv`:1962-2031 -/
def decoderChunk28 : List DecRow := [
  ⟨1961, 30000, 40000, 2⟩, ⟨1962, 30000, 42000, 2⟩, ⟨1963, 30000, 44000, 2⟩, ⟨1964, 30000, 46000, 2⟩, ⟨1965, 30000, 48000, 2⟩,
  ⟨1966, 30000, 50000, 2⟩, ⟨1967, 30000, 52000, 2⟩, ⟨1968, 30000, 54000, 2⟩, ⟨1969, 30000, 56000, 2⟩, ⟨1970, 30000, 58000, 2⟩,
  ⟨1971, 30000, 60000, 2⟩, ⟨1972, 30000, 62000, 2⟩, ⟨1973, 30000, 64000, 2⟩, ⟨1974, 30000, 66000, 2⟩, ⟨1975, 30000, 68000, 2⟩,
  ⟨1976, 30000, 70000, 2⟩, ⟨1977, 30000, 72000, 2⟩, ⟨1978, 30000, 74000, 2⟩, ⟨1979, 30000, 76000, 2⟩, ⟨1980, 30000, 78000, 2⟩,
  ⟨1981, 30000, 80000, 2⟩, ⟨1982, 30000, 85000, 2⟩, ⟨1983, 30000, 90000, 2⟩, ⟨1984, 30000, 95000, 2⟩, ⟨1985, 30000, 100000, 2⟩,
  ⟨1986, 30000, 105000, 2⟩, ⟨1987, 30000, 110000, 2⟩, ⟨1988, 30000, 115000, 2⟩, ⟨1989, 30000, 120000, 2⟩, ⟨1990, 30000, 125000, 2⟩,
  ⟨1991, 30000, 130000, 2⟩, ⟨1992, 30000, 135000, 2⟩, ⟨1993, 30000, 140000, 2⟩, ⟨1994, 30000, 145000, 2⟩, ⟨1995, 30000, 150000, 2⟩,
  ⟨1996, 30000, 155000, 2⟩, ⟨1997, 30000, 160000, 2⟩, ⟨1998, 30000, 165000, 2⟩, ⟨1999, 30000, 170000, 2⟩, ⟨2000, 30000, 175000, 2⟩,
  ⟨2001, 30000, 180000, 2⟩, ⟨2002, 30000, 185000, 2⟩, ⟨2003, 30000, 190000, 2⟩, ⟨2004, 30000, 195000, 2⟩, ⟨2005, 40000, 0, 2⟩,
  ⟨2006, 40000, 100, 2⟩, ⟨2007, 40000, 500, 2⟩, ⟨2008, 40000, 1000, 2⟩, ⟨2009, 40000, 2000, 2⟩, ⟨2010, 40000, 3000, 2⟩,
  ⟨2011, 40000, 4000, 2⟩, ⟨2012, 40000, 5000, 2⟩, ⟨2013, 40000, 6000, 2⟩, ⟨2014, 40000, 7000, 2⟩, ⟨2015, 40000, 8000, 2⟩,
  ⟨2016, 40000, 9000, 2⟩, ⟨2017, 40000, 10000, 2⟩, ⟨2018, 40000, 11000, 2⟩, ⟨2019, 40000, 12000, 2⟩, ⟨2020, 40000, 13000, 2⟩,
  ⟨2021, 40000, 14000, 2⟩, ⟨2022, 40000, 15000, 2⟩, ⟨2023, 40000, 16000, 2⟩, ⟨2024, 40000, 17000, 2⟩, ⟨2025, 40000, 18000, 2⟩,
  ⟨2026, 40000, 19000, 2⟩, ⟨2027, 40000, 20000, 2⟩, ⟨2028, 40000, 22000, 2⟩, ⟨2029, 40000, 24000, 2⟩, ⟨2030, 40000, 26000, 2⟩]

/-- `fileDecoder.csv`:2032-2101 -/
def decoderChunk29 : List DecRow := [
  ⟨2031, 40000, 28000, 2⟩, ⟨2032, 40000, 30000, 2⟩, ⟨2033, 40000, 32000, 2⟩, ⟨2034, 40000, 34000, 2⟩, ⟨2035, 40000, 36000, 2⟩,
  ⟨2036, 40000, 38000, 2⟩, ⟨2037, 40000, 40000, 2⟩, ⟨2038, 40000, 42000, 2⟩, ⟨2039, 40000, 44000, 2⟩, ⟨2040, 40000, 46000, 2⟩,
  ⟨2041, 40000, 48000, 2⟩, ⟨2042, 40000, 50000, 2⟩, ⟨2043, 40000, 52000, 2⟩, ⟨2044, 40000, 54000, 2⟩, ⟨2045, 40000, 56000, 2⟩,
  ⟨2046, 40000, 58000, 2⟩, ⟨2047, 40000, 60000, 2⟩, ⟨2048, 40000, 62000, 2⟩, ⟨2049, 40000, 64000, 2⟩, ⟨2050, 40000, 66000, 2⟩,
  ⟨2051, 40000, 68000, 2⟩, ⟨2052, 40000, 70000, 2⟩, ⟨2053, 40000, 72000, 2⟩, ⟨2054, 40000, 74000, 2⟩, ⟨2055, 40000, 76000, 2⟩,
  ⟨2056, 40000, 78000, 2⟩, ⟨2057, 40000, 80000, 2⟩, ⟨2058, 40000, 85000, 2⟩, ⟨2059, 40000, 90000, 2⟩, ⟨2060, 40000, 95000, 2⟩,
  ⟨2061, 40000, 100000, 2⟩, ⟨2062, 40000, 105000, 2⟩, ⟨2063, 40000, 110000, 2⟩, ⟨2064, 40000, 115000, 2⟩, ⟨2065, 40000, 120000, 2⟩,
  ⟨2066, 40000, 125000, 2⟩, ⟨2067, 40000, 130000, 2⟩, ⟨2068, 40000, 135000, 2⟩, ⟨2069, 40000, 140000, 2⟩, ⟨2070, 40000, 145000, 2⟩,
  ⟨2071, 40000, 150000, 2⟩, ⟨2072, 40000, 155000, 2⟩, ⟨2073, 40000, 160000, 2⟩, ⟨2074, 40000, 165000, 2⟩, ⟨2075, 40000, 170000, 2⟩,
  ⟨2076, 40000, 175000, 2⟩, ⟨2077, 40000, 180000, 2⟩, ⟨2078, 40000, 185000, 2⟩, ⟨2079, 40000, 190000, 2⟩, ⟨2080, 40000, 195000, 2⟩,
  ⟨2081, 40000, 200000, 2⟩, ⟨2082, 40000, 205000, 2⟩, ⟨2083, 40000, 210000, 2⟩, ⟨2084, 40000, 215000, 2⟩, ⟨2085, 40000, 220000, 2⟩,
  ⟨2086, 40000, 225000, 2⟩, ⟨2087, 50000, 0, 2⟩, ⟨2088, 50000, 100, 2⟩, ⟨2089, 50000, 500, 2⟩, ⟨2090, 50000, 1000, 2⟩,
  ⟨2091, 50000, 2000, 2⟩, ⟨2092, 50000, 3000, 2⟩, ⟨2093, 50000, 4000, 2⟩, ⟨2094, 50000, 5000, 2⟩, ⟨2095, 50000, 6000, 2⟩,
  ⟨2096, 50000, 7000, 2⟩, ⟨2097, 50000, 8000, 2⟩, ⟨2098, 50000, 9000, 2⟩, ⟨2099, 50000, 10000, 2⟩, ⟨2100, 50000, 11000, 2⟩]

/-- `fileDecoder.csv`:2102-2171 -/
def decoderChunk30 : List DecRow := [
  ⟨2101, 50000, 12000, 2⟩, ⟨2102, 50000, 13000, 2⟩, ⟨2103, 50000, 14000, 2⟩, ⟨2104, 50000, 15000, 2⟩, ⟨2105, 50000, 16000, 2⟩,
  ⟨2106, 50000, 17000, 2⟩, ⟨2107, 50000, 18000, 2⟩, ⟨2108, 50000, 19000, 2⟩, ⟨2109, 50000, 20000, 2⟩, ⟨2110, 50000, 22000, 2⟩,
  ⟨2111, 50000, 24000, 2⟩, ⟨2112, 50000, 26000, 2⟩, ⟨2113, 50000, 28000, 2⟩, ⟨2114, 50000, 30000, 2⟩, ⟨2115, 50000, 32000, 2⟩,
  ⟨2116, 50000, 34000, 2⟩, ⟨2117, 50000, 36000, 2⟩, ⟨2118, 50000, 38000, 2⟩, ⟨2119, 50000, 40000, 2⟩, ⟨2120, 50000, 42000, 2⟩,
  ⟨2121, 50000, 44000, 2⟩, ⟨2122, 50000, 46000, 2⟩, ⟨2123, 50000, 48000, 2⟩, ⟨2124, 50000, 50000, 2⟩, ⟨2125, 50000, 52000, 2⟩,
  ⟨2126, 50000, 54000, 2⟩, ⟨2127, 50000, 56000, 2⟩, ⟨2128, 50000, 58000, 2⟩, ⟨2129, 50000, 60000, 2⟩, ⟨2130, 50000, 62000, 2⟩,
  ⟨2131, 50000, 64000, 2⟩, ⟨2132, 50000, 66000, 2⟩, ⟨2133, 50000, 68000, 2⟩, ⟨2134, 50000, 70000, 2⟩, ⟨2135, 50000, 72000, 2⟩,
  ⟨2136, 50000, 74000, 2⟩, ⟨2137, 50000, 76000, 2⟩, ⟨2138, 50000, 78000, 2⟩, ⟨2139, 50000, 80000, 2⟩, ⟨2140, 50000, 85000, 2⟩,
  ⟨2141, 50000, 90000, 2⟩, ⟨2142, 50000, 95000, 2⟩, ⟨2143, 50000, 100000, 2⟩, ⟨2144, 50000, 105000, 2⟩, ⟨2145, 50000, 110000, 2⟩,
  ⟨2146, 50000, 115000, 2⟩, ⟨2147, 50000, 120000, 2⟩, ⟨2148, 50000, 125000, 2⟩, ⟨2149, 50000, 130000, 2⟩, ⟨2150, 50000, 135000, 2⟩,
  ⟨2151, 50000, 140000, 2⟩, ⟨2152, 50000, 145000, 2⟩, ⟨2153, 50000, 150000, 2⟩, ⟨2154, 50000, 155000, 2⟩, ⟨2155, 50000, 160000, 2⟩,
  ⟨2156, 50000, 165000, 2⟩, ⟨2157, 50000, 170000, 2⟩, ⟨2158, 50000, 175000, 2⟩, ⟨2159, 50000, 180000, 2⟩, ⟨2160, 50000, 185000, 2⟩,
  ⟨2161, 50000, 190000, 2⟩, ⟨2162, 50000, 195000, 2⟩, ⟨2163, 50000, 200000, 2⟩, ⟨2164, 50000, 205000, 2⟩, ⟨2165, 50000, 210000, 2⟩,
  ⟨2166, 50000, 215000, 2⟩, ⟨2167, 50000, 220000, 2⟩, ⟨2168, 50000, 225000, 2⟩, ⟨2169, 50000, 230000, 2⟩, ⟨2170, 50000, 235000, 2⟩]

/-- `fileDecoder.csv`:2172-2241 -/
def decoderChunk31 : List DecRow := [
  ⟨2171, 50000, 240000, 2⟩, ⟨2172, 50000, 245000, 2⟩, ⟨2173, 50000, 250000, 2⟩, ⟨2174, 60000, 0, 2⟩, ⟨2175, 60000, 100, 2⟩,
  ⟨2176, 60000, 500, 2⟩, ⟨2177, 60000, 1000, 2⟩, ⟨2178, 60000, 2000, 2⟩, ⟨2179, 60000, 3000, 2⟩, ⟨2180, 60000, 4000, 2⟩,
  ⟨2181, 60000, 5000, 2⟩, ⟨2182, 60000, 6000, 2⟩, ⟨2183, 60000, 7000, 2⟩, ⟨2184, 60000, 8000, 2⟩, ⟨2185, 60000, 9000, 2⟩,
  ⟨2186, 60000, 10000, 2⟩, ⟨2187, 60000, 11000, 2⟩, ⟨2188, 60000, 12000, 2⟩, ⟨2189, 60000, 13000, 2⟩, ⟨2190, 60000, 14000, 2⟩,
  ⟨2191, 60000, 15000, 2⟩, ⟨2192, 60000, 16000, 2⟩, ⟨2193, 60000, 17000, 2⟩, ⟨2194, 60000, 18000, 2⟩, ⟨2195, 60000, 19000, 2⟩,
  ⟨2196, 60000, 20000, 2⟩, ⟨2197, 60000, 22000, 2⟩, ⟨2198, 60000, 24000, 2⟩, ⟨2199, 60000, 26000, 2⟩, ⟨2200, 60000, 28000, 2⟩,
  ⟨2201, 60000, 30000, 2⟩, ⟨2202, 60000, 32000, 2⟩, ⟨2203, 60000, 34000, 2⟩, ⟨2204, 60000, 36000, 2⟩, ⟨2205, 60000, 38000, 2⟩,
  ⟨2206, 60000, 40000, 2⟩, ⟨2207, 60000, 42000, 2⟩, ⟨2208, 60000, 44000, 2⟩, ⟨2209, 60000, 46000, 2⟩, ⟨2210, 60000, 48000, 2⟩,
  ⟨2211, 60000, 50000, 2⟩, ⟨2212, 60000, 52000, 2⟩, ⟨2213, 60000, 54000, 2⟩, ⟨2214, 60000, 56000, 2⟩, ⟨2215, 60000, 58000, 2⟩,
  ⟨2216, 60000, 60000, 2⟩, ⟨2217, 60000, 62000, 2⟩, ⟨2218, 60000, 64000, 2⟩, ⟨2219, 60000, 66000, 2⟩, ⟨2220, 60000, 68000, 2⟩,
  ⟨2221, 60000, 70000, 2⟩, ⟨2222, 60000, 72000, 2⟩, ⟨2223, 60000, 74000, 2⟩, ⟨2224, 60000, 76000, 2⟩, ⟨2225, 60000, 78000, 2⟩,
  ⟨2226, 60000, 80000, 2⟩, ⟨2227, 60000, 85000, 2⟩, ⟨2228, 60000, 90000, 2⟩, ⟨2229, 60000, 95000, 2⟩, ⟨2230, 60000, 100000, 2⟩,
  ⟨2231, 60000, 105000, 2⟩, ⟨2232, 60000, 110000, 2⟩, ⟨2233, 60000, 115000, 2⟩, ⟨2234, 60000, 120000, 2⟩, ⟨2235, 60000, 125000, 2⟩,
  ⟨2236, 60000, 130000, 2⟩, ⟨2237, 60000, 135000, 2⟩, ⟨2238, 60000, 140000, 2⟩, ⟨2239, 60000, 145000, 2⟩, ⟨2240, 60000, 150000, 2⟩]

/-- `fileDecoder.csv`:2242-2311 -/
def decoderChunk32 : List DecRow := [
  ⟨2241, 60000, 155000, 2⟩, ⟨2242, 60000, 160000, 2⟩, ⟨2243, 60000, 165000, 2⟩, ⟨2244, 60000, 170000, 2⟩, ⟨2245, 60000, 175000, 2⟩,
  ⟨2246, 60000, 180000, 2⟩, ⟨2247, 60000, 185000, 2⟩, ⟨2248, 60000, 190000, 2⟩, ⟨2249, 60000, 195000, 2⟩, ⟨2250, 60000, 200000, 2⟩,
  ⟨2251, 60000, 205000, 2⟩, ⟨2252, 60000, 210000, 2⟩, ⟨2253, 60000, 215000, 2⟩, ⟨2254, 60000, 220000, 2⟩, ⟨2255, 60000, 225000, 2⟩,
  ⟨2256, 60000, 230000, 2⟩, ⟨2257, 60000, 235000, 2⟩, ⟨2258, 60000, 240000, 2⟩, ⟨2259, 60000, 245000, 2⟩, ⟨2260, 60000, 250000, 2⟩,
  ⟨2261, 60000, 255000, 2⟩, ⟨2262, 60000, 260000, 2⟩, ⟨2263, 60000, 265000, 2⟩, ⟨2264, 60000, 270000, 2⟩, ⟨2265, 60000, 275000, 2⟩,
  ⟨2266, 70000, 0, 2⟩, ⟨2267, 70000, 100, 2⟩, ⟨2268, 70000, 500, 2⟩, ⟨2269, 70000, 1000, 2⟩, ⟨2270, 70000, 2000, 2⟩,
  ⟨2271, 70000, 3000, 2⟩, ⟨2272, 70000, 4000, 2⟩, ⟨2273, 70000, 5000, 2⟩, ⟨2274, 70000, 6000, 2⟩, ⟨2275, 70000, 7000, 2⟩,
  ⟨2276, 70000, 8000, 2⟩, ⟨2277, 70000, 9000, 2⟩, ⟨2278, 70000, 10000, 2⟩, ⟨2279, 70000, 11000, 2⟩, ⟨2280, 70000, 12000, 2⟩,
  ⟨2281, 70000, 13000, 2⟩, ⟨2282, 70000, 14000, 2⟩, ⟨2283, 70000, 15000, 2⟩, ⟨2284, 70000, 16000, 2⟩, ⟨2285, 70000, 17000, 2⟩,
  ⟨2286, 70000, 18000, 2⟩, ⟨2287, 70000, 19000, 2⟩, ⟨2288, 70000, 20000, 2⟩, ⟨2289, 70000, 22000, 2⟩, ⟨2290, 70000, 24000, 2⟩,
  ⟨2291, 70000, 26000, 2⟩, ⟨2292, 70000, 28000, 2⟩, ⟨2293, 70000, 30000, 2⟩, ⟨2294, 70000, 32000, 2⟩, ⟨2295, 70000, 34000, 2⟩,
  ⟨2296, 70000, 36000, 2⟩, ⟨2297, 70000, 38000, 2⟩, ⟨2298, 70000, 40000, 2⟩, ⟨2299, 70000, 42000, 2⟩, ⟨2300, 70000, 44000, 2⟩,
  ⟨2301, 70000, 46000, 2⟩, ⟨2302, 70000, 48000, 2⟩, ⟨2303, 70000, 50000, 2⟩, ⟨2304, 70000, 52000, 2⟩, ⟨2305, 70000, 54000, 2⟩,
  ⟨2306, 70000, 56000, 2⟩, ⟨2307, 70000, 58000, 2⟩, ⟨2308, 70000, 60000, 2⟩, ⟨2309, 70000, 62000, 2⟩, ⟨2310, 70000, 64000, 2⟩]

/-- `fileDecoder.csv`:2312-2381 -/
def decoderChunk33 : List DecRow := [
  ⟨2311, 70000, 66000, 2⟩, ⟨2312, 70000, 68000, 2⟩, ⟨2313, 70000, 70000, 2⟩, ⟨2314, 70000, 72000, 2⟩, ⟨2315, 70000, 74000, 2⟩,
  ⟨2316, 70000, 76000, 2⟩, ⟨2317, 70000, 78000, 2⟩, ⟨2318, 70000, 80000, 2⟩, ⟨2319, 70000, 85000, 2⟩, ⟨2320, 70000, 90000, 2⟩,
  ⟨2321, 70000, 95000, 2⟩, ⟨2322, 70000, 100000, 2⟩, ⟨2323, 70000, 105000, 2⟩, ⟨2324, 70000, 110000, 2⟩, ⟨2325, 70000, 115000, 2⟩,
  ⟨2326, 70000, 120000, 2⟩, ⟨2327, 70000, 125000, 2⟩, ⟨2328, 70000, 130000, 2⟩, ⟨2329, 70000, 135000, 2⟩, ⟨2330, 70000, 140000, 2⟩,
  ⟨2331, 70000, 145000, 2⟩, ⟨2332, 70000, 150000, 2⟩, ⟨2333, 70000, 155000, 2⟩, ⟨2334, 70000, 160000, 2⟩, ⟨2335, 70000, 165000, 2⟩,
  ⟨2336, 70000, 170000, 2⟩, ⟨2337, 70000, 175000, 2⟩, ⟨2338, 70000, 180000, 2⟩, ⟨2339, 70000, 185000, 2⟩, ⟨2340, 70000, 190000, 2⟩,
  ⟨2341, 70000, 195000, 2⟩, ⟨2342, 70000, 200000, 2⟩, ⟨2343, 70000, 205000, 2⟩, ⟨2344, 70000, 210000, 2⟩, ⟨2345, 70000, 215000, 2⟩,
  ⟨2346, 70000, 220000, 2⟩, ⟨2347, 70000, 225000, 2⟩, ⟨2348, 70000, 230000, 2⟩, ⟨2349, 70000, 235000, 2⟩, ⟨2350, 70000, 240000, 2⟩,
  ⟨2351, 70000, 245000, 2⟩, ⟨2352, 70000, 250000, 2⟩, ⟨2353, 70000, 255000, 2⟩, ⟨2354, 70000, 260000, 2⟩, ⟨2355, 70000, 265000, 2⟩,
  ⟨2356, 70000, 270000, 2⟩, ⟨2357, 70000, 275000, 2⟩, ⟨2358, 70000, 280000, 2⟩, ⟨2359, 70000, 285000, 2⟩, ⟨2360, 70000, 290000, 2⟩,
  ⟨2361, 70000, 295000, 2⟩, ⟨2362, 80000, 0, 2⟩, ⟨2363, 80000, 100, 2⟩, ⟨2364, 80000, 500, 2⟩, ⟨2365, 80000, 1000, 2⟩,
  ⟨2366, 80000, 2000, 2⟩, ⟨2367, 80000, 3000, 2⟩, ⟨2368, 80000, 4000, 2⟩, ⟨2369, 80000, 5000, 2⟩, ⟨2370, 80000, 6000, 2⟩,
  ⟨2371, 80000, 7000, 2⟩, ⟨2372, 80000, 8000, 2⟩, ⟨2373, 80000, 9000, 2⟩, ⟨2374, 80000, 10000, 2⟩, ⟨2375, 80000, 11000, 2⟩,
  ⟨2376, 80000, 12000, 2⟩, ⟨2377, 80000, 13000, 2⟩, ⟨2378, 80000, 14000, 2⟩, ⟨2379, 80000, 15000, 2⟩, ⟨2380, 80000, 16000, 2⟩]

/-- `fileDecoder.csv`:2382-2451 -/
def decoderChunk34 : List DecRow := [
  ⟨2381, 80000, 17000, 2⟩, ⟨2382, 80000, 18000, 2⟩, ⟨2383, 80000, 19000, 2⟩, ⟨2384, 80000, 20000, 2⟩, ⟨2385, 80000, 22000, 2⟩,
  ⟨2386, 80000, 24000, 2⟩, ⟨2387, 80000, 26000, 2⟩, ⟨2388, 80000, 28000, 2⟩, ⟨2389, 80000, 30000, 2⟩, ⟨2390, 80000, 32000, 2⟩,
  ⟨2391, 80000, 34000, 2⟩, ⟨2392, 80000, 36000, 2⟩, ⟨2393, 80000, 38000, 2⟩, ⟨2394, 80000, 40000, 2⟩, ⟨2395, 80000, 42000, 2⟩,
  ⟨2396, 80000, 44000, 2⟩, ⟨2397, 80000, 46000, 2⟩, ⟨2398, 80000, 48000, 2⟩, ⟨2399, 80000, 50000, 2⟩, ⟨2400, 80000, 52000, 2⟩,
  ⟨2401, 80000, 54000, 2⟩, ⟨2402, 80000, 56000, 2⟩, ⟨2403, 80000, 58000, 2⟩, ⟨2404, 80000, 60000, 2⟩, ⟨2405, 80000, 62000, 2⟩,
  ⟨2406, 80000, 64000, 2⟩, ⟨2407, 80000, 66000, 2⟩, ⟨2408, 80000, 68000, 2⟩, ⟨2409, 80000, 70000, 2⟩, ⟨2410, 80000, 72000, 2⟩,
  ⟨2411, 80000, 74000, 2⟩, ⟨2412, 80000, 76000, 2⟩, ⟨2413, 80000, 78000, 2⟩, ⟨2414, 80000, 80000, 2⟩, ⟨2415, 80000, 85000, 2⟩,
  ⟨2416, 80000, 90000, 2⟩, ⟨2417, 80000, 95000, 2⟩, ⟨2418, 80000, 100000, 2⟩, ⟨2419, 80000, 105000, 2⟩, ⟨2420, 80000, 110000, 2⟩,
  ⟨2421, 80000, 115000, 2⟩, ⟨2422, 80000, 120000, 2⟩, ⟨2423, 80000, 125000, 2⟩, ⟨2424, 80000, 130000, 2⟩, ⟨2425, 80000, 135000, 2⟩,
  ⟨2426, 80000, 140000, 2⟩, ⟨2427, 80000, 145000, 2⟩, ⟨2428, 80000, 150000, 2⟩, ⟨2429, 80000, 155000, 2⟩, ⟨2430, 80000, 160000, 2⟩,
  ⟨2431, 80000, 165000, 2⟩, ⟨2432, 80000, 170000, 2⟩, ⟨2433, 80000, 175000, 2⟩, ⟨2434, 80000, 180000, 2⟩, ⟨2435, 80000, 185000, 2⟩,
  ⟨2436, 80000, 190000, 2⟩, ⟨2437, 80000, 195000, 2⟩, ⟨2438, 80000, 200000, 2⟩, ⟨2439, 80000, 205000, 2⟩, ⟨2440, 80000, 210000, 2⟩,
  ⟨2441, 80000, 215000, 2⟩, ⟨2442, 80000, 220000, 2⟩, ⟨2443, 80000, 225000, 2⟩, ⟨2444, 80000, 230000, 2⟩, ⟨2445, 80000, 235000, 2⟩,
  ⟨2446, 80000, 240000, 2⟩, ⟨2447, 80000, 245000, 2⟩, ⟨2448, 80000, 250000, 2⟩, ⟨2449, 80000, 255000, 2⟩, ⟨2450, 80000, 260000, 2⟩]

/-- `fileDecoder.csv`:2452-2521 -/
def decoderChunk35 : List DecRow := [
  ⟨2451, 80000, 265000, 2⟩, ⟨2452, 80000, 270000, 2⟩, ⟨2453, 80000, 275000, 2⟩, ⟨2454, 80000, 280000, 2⟩, ⟨2455, 80000, 285000, 2⟩,
  ⟨2456, 80000, 290000, 2⟩, ⟨2457, 80000, 295000, 2⟩, ⟨2458, 80000, 300000, 2⟩, ⟨2459, 90000, 0, 2⟩, ⟨2460, 90000, 100, 2⟩,
  ⟨2461, 90000, 500, 2⟩, ⟨2462, 90000, 1000, 2⟩, ⟨2463, 90000, 2000, 2⟩, ⟨2464, 90000, 3000, 2⟩, ⟨2465, 90000, 4000, 2⟩,
  ⟨2466, 90000, 5000, 2⟩, ⟨2467, 90000, 6000, 2⟩, ⟨2468, 90000, 7000, 2⟩, ⟨2469, 90000, 8000, 2⟩, ⟨2470, 90000, 9000, 2⟩,
  ⟨2471, 90000, 10000, 2⟩, ⟨2472, 90000, 11000, 2⟩, ⟨2473, 90000, 12000, 2⟩, ⟨2474, 90000, 13000, 2⟩, ⟨2475, 90000, 14000, 2⟩,
  ⟨2476, 90000, 15000, 2⟩, ⟨2477, 90000, 16000, 2⟩, ⟨2478, 90000, 17000, 2⟩, ⟨2479, 90000, 18000, 2⟩, ⟨2480, 90000, 19000, 2⟩,
  ⟨2481, 90000, 20000, 2⟩, ⟨2482, 90000, 22000, 2⟩, ⟨2483, 90000, 24000, 2⟩, ⟨2484, 90000, 26000, 2⟩, ⟨2485, 90000, 28000, 2⟩,
  ⟨2486, 90000, 30000, 2⟩, ⟨2487, 90000, 32000, 2⟩, ⟨2488, 90000, 34000, 2⟩, ⟨2489, 90000, 36000, 2⟩, ⟨2490, 90000, 38000, 2⟩,
  ⟨2491, 90000, 40000, 2⟩, ⟨2492, 90000, 42000, 2⟩, ⟨2493, 90000, 44000, 2⟩, ⟨2494, 90000, 46000, 2⟩, ⟨2495, 90000, 48000, 2⟩,
  ⟨2496, 90000, 50000, 2⟩, ⟨2497, 90000, 52000, 2⟩, ⟨2498, 90000, 54000, 2⟩, ⟨2499, 90000, 56000, 2⟩, ⟨2500, 90000, 58000, 2⟩,
  ⟨2501, 90000, 60000, 2⟩, ⟨2502, 90000, 62000, 2⟩, ⟨2503, 90000, 64000, 2⟩, ⟨2504, 90000, 66000, 2⟩, ⟨2505, 90000, 68000, 2⟩,
  ⟨2506, 90000, 70000, 2⟩, ⟨2507, 90000, 72000, 2⟩, ⟨2508, 90000, 74000, 2⟩, ⟨2509, 90000, 76000, 2⟩, ⟨2510, 90000, 78000, 2⟩,
  ⟨2511, 90000, 80000, 2⟩, ⟨2512, 90000, 85000, 2⟩, ⟨2513, 90000, 90000, 2⟩, ⟨2514, 90000, 95000, 2⟩, ⟨2515, 90000, 100000, 2⟩,
  ⟨2516, 90000, 105000, 2⟩, ⟨2517, 90000, 110000, 2⟩, ⟨2518, 90000, 115000, 2⟩, ⟨2519, 90000, 120000, 2⟩, ⟨2520, 90000, 125000, 2⟩]

/-- `fileDecoder.csv`:2522-2591 -/
def decoderChunk36 : List DecRow := [
  ⟨2521, 90000, 130000, 2⟩, ⟨2522, 90000, 135000, 2⟩, ⟨2523, 90000, 140000, 2⟩, ⟨2524, 90000, 145000, 2⟩, ⟨2525, 90000, 150000, 2⟩,
  ⟨2526, 90000, 155000, 2⟩, ⟨2527, 90000, 160000, 2⟩, ⟨2528, 90000, 165000, 2⟩, ⟨2529, 90000, 170000, 2⟩, ⟨2530, 90000, 175000, 2⟩,
  ⟨2531, 90000, 180000, 2⟩, ⟨2532, 90000, 185000, 2⟩, ⟨2533, 90000, 190000, 2⟩, ⟨2534, 90000, 195000, 2⟩, ⟨2535, 90000, 200000, 2⟩,
  ⟨2536, 90000, 205000, 2⟩, ⟨2537, 90000, 210000, 2⟩, ⟨2538, 90000, 215000, 2⟩, ⟨2539, 90000, 220000, 2⟩, ⟨2540, 90000, 225000, 2⟩,
  ⟨2541, 90000, 230000, 2⟩, ⟨2542, 90000, 235000, 2⟩, ⟨2543, 90000, 240000, 2⟩, ⟨2544, 90000, 245000, 2⟩, ⟨2545, 90000, 250000, 2⟩,
  ⟨2546, 90000, 255000, 2⟩, ⟨2547, 90000, 260000, 2⟩, ⟨2548, 90000, 265000, 2⟩, ⟨2549, 90000, 270000, 2⟩, ⟨2550, 90000, 275000, 2⟩,
  ⟨2551, 90000, 280000, 2⟩, ⟨2552, 90000, 285000, 2⟩, ⟨2553, 90000, 290000, 2⟩, ⟨2554, 90000, 295000, 2⟩, ⟨2555, 90000, 300000, 2⟩,
  ⟨2556, 100000, 0, 2⟩, ⟨2557, 100000, 100, 2⟩, ⟨2558, 100000, 500, 2⟩, ⟨2559, 100000, 1000, 2⟩, ⟨2560, 100000, 2000, 2⟩,
  ⟨2561, 100000, 3000, 2⟩, ⟨2562, 100000, 4000, 2⟩, ⟨2563, 100000, 5000, 2⟩, ⟨2564, 100000, 6000, 2⟩, ⟨2565, 100000, 7000, 2⟩,
  ⟨2566, 100000, 8000, 2⟩, ⟨2567, 100000, 9000, 2⟩, ⟨2568, 100000, 10000, 2⟩, ⟨2569, 100000, 11000, 2⟩, ⟨2570, 100000, 12000, 2⟩,
  ⟨2571, 100000, 13000, 2⟩, ⟨2572, 100000, 14000, 2⟩, ⟨2573, 100000, 15000, 2⟩, ⟨2574, 100000, 16000, 2⟩, ⟨2575, 100000, 17000, 2⟩,
  ⟨2576, 100000, 18000, 2⟩, ⟨2577, 100000, 19000, 2⟩, ⟨2578, 100000, 20000, 2⟩, ⟨2579, 100000, 22000, 2⟩, ⟨2580, 100000, 24000, 2⟩,
  ⟨2581, 100000, 26000, 2⟩, ⟨2582, 100000, 28000, 2⟩, ⟨2583, 100000, 30000, 2⟩, ⟨2584, 100000, 32000, 2⟩, ⟨2585, 100000, 34000, 2⟩,
  ⟨2586, 100000, 36000, 2⟩, ⟨2587, 100000, 38000, 2⟩, ⟨2588, 100000, 40000, 2⟩, ⟨2589, 100000, 42000, 2⟩, ⟨2590, 100000, 44000, 2⟩]

/-- `fileDecoder.csv`:2592-2661 -/
def decoderChunk37 : List DecRow := [
  ⟨2591, 100000, 46000, 2⟩, ⟨2592, 100000, 48000, 2⟩, ⟨2593, 100000, 50000, 2⟩, ⟨2594, 100000, 52000, 2⟩, ⟨2595, 100000, 54000, 2⟩,
  ⟨2596, 100000, 56000, 2⟩, ⟨2597, 100000, 58000, 2⟩, ⟨2598, 100000, 60000, 2⟩, ⟨2599, 100000, 62000, 2⟩, ⟨2600, 100000, 64000, 2⟩,
  ⟨2601, 100000, 66000, 2⟩, ⟨2602, 100000, 68000, 2⟩, ⟨2603, 100000, 70000, 2⟩, ⟨2604, 100000, 72000, 2⟩, ⟨2605, 100000, 74000, 2⟩,
  ⟨2606, 100000, 76000, 2⟩, ⟨2607, 100000, 78000, 2⟩, ⟨2608, 100000, 80000, 2⟩, ⟨2609, 100000, 85000, 2⟩, ⟨2610, 100000, 90000, 2⟩,
  ⟨2611, 100000, 95000, 2⟩, ⟨2612, 100000, 100000, 2⟩, ⟨2613, 100000, 105000, 2⟩, ⟨2614, 100000, 110000, 2⟩, ⟨2615, 100000, 115000, 2⟩,
  ⟨2616, 100000, 120000, 2⟩, ⟨2617, 100000, 125000, 2⟩, ⟨2618, 100000, 130000, 2⟩, ⟨2619, 100000, 135000, 2⟩, ⟨2620, 100000, 140000, 2⟩,
  ⟨2621, 100000, 145000, 2⟩, ⟨2622, 100000, 150000, 2⟩, ⟨2623, 100000, 155000, 2⟩, ⟨2624, 100000, 160000, 2⟩, ⟨2625, 100000, 165000, 2⟩,
  ⟨2626, 100000, 170000, 2⟩, ⟨2627, 100000, 175000, 2⟩, ⟨2628, 100000, 180000, 2⟩, ⟨2629, 100000, 185000, 2⟩, ⟨2630, 100000, 190000, 2⟩,
  ⟨2631, 100000, 195000, 2⟩, ⟨2632, 100000, 200000, 2⟩, ⟨2633, 100000, 205000, 2⟩, ⟨2634, 100000, 210000, 2⟩, ⟨2635, 100000, 215000, 2⟩,
  ⟨2636, 100000, 220000, 2⟩, ⟨2637, 100000, 225000, 2⟩, ⟨2638, 100000, 230000, 2⟩, ⟨2639, 100000, 235000, 2⟩, ⟨2640, 100000, 240000, 2⟩,
  ⟨2641, 100000, 245000, 2⟩, ⟨2642, 100000, 250000, 2⟩, ⟨2643, 100000, 255000, 2⟩, ⟨2644, 100000, 260000, 2⟩, ⟨2645, 100000, 265000, 2⟩,
  ⟨2646, 100000, 270000, 2⟩, ⟨2647, 100000, 275000, 2⟩, ⟨2648, 100000, 280000, 2⟩, ⟨2649, 100000, 285000, 2⟩, ⟨2650, 100000, 290000, 2⟩,
  ⟨2651, 100000, 295000, 2⟩, ⟨2652, 100000, 300000, 2⟩, ⟨2653, 110000, 0, 2⟩, ⟨2654, 110000, 100, 2⟩, ⟨2655, 110000, 500, 2⟩,
  ⟨2656, 110000, 1000, 2⟩, ⟨2657, 110000, 2000, 2⟩, ⟨2658, 110000, 3000, 2⟩, ⟨2659, 110000, 4000, 2⟩, ⟨2660, 110000, 5000, 2⟩]

/-- `fileDecoder.csv`:2662-2731 -/
def decoderChunk38 : List DecRow := [
  ⟨2661, 110000, 6000, 2⟩, ⟨2662, 110000, 7000, 2⟩, ⟨2663, 110000, 8000, 2⟩, ⟨2664, 110000, 9000, 2⟩, ⟨2665, 110000, 10000, 2⟩,
  ⟨2666, 110000, 11000, 2⟩, ⟨2667, 110000, 12000, 2⟩, ⟨2668, 110000, 13000, 2⟩, ⟨2669, 110000, 14000, 2⟩, ⟨2670, 110000, 15000, 2⟩,
  ⟨2671, 110000, 16000, 2⟩, ⟨2672, 110000, 17000, 2⟩, ⟨2673, 110000, 18000, 2⟩, ⟨2674, 110000, 19000, 2⟩, ⟨2675, 110000, 20000, 2⟩,
  ⟨2676, 110000, 22000, 2⟩, ⟨2677, 110000, 24000, 2⟩, ⟨2678, 110000, 26000, 2⟩, ⟨2679, 110000, 28000, 2⟩, ⟨2680, 110000, 30000, 2⟩,
  ⟨2681, 110000, 32000, 2⟩, ⟨2682, 110000, 34000, 2⟩, ⟨2683, 110000, 36000, 2⟩, ⟨2684, 110000, 38000, 2⟩, ⟨2685, 110000, 40000, 2⟩,
  ⟨2686, 110000, 42000, 2⟩, ⟨2687, 110000, 44000, 2⟩, ⟨2688, 110000, 46000, 2⟩, ⟨2689, 110000, 48000, 2⟩, ⟨2690, 110000, 50000, 2⟩,
  ⟨2691, 110000, 52000, 2⟩, ⟨2692, 110000, 54000, 2⟩, ⟨2693, 110000, 56000, 2⟩, ⟨2694, 110000, 58000, 2⟩, ⟨2695, 110000, 60000, 2⟩,
  ⟨2696, 110000, 62000, 2⟩, ⟨2697, 110000, 64000, 2⟩, ⟨2698, 110000, 66000, 2⟩, ⟨2699, 110000, 68000, 2⟩, ⟨2700, 110000, 70000, 2⟩,
  ⟨2701, 110000, 72000, 2⟩, ⟨2702, 110000, 74000, 2⟩, ⟨2703, 110000, 76000, 2⟩, ⟨2704, 110000, 78000, 2⟩, ⟨2705, 110000, 80000, 2⟩,
  ⟨2706, 110000, 85000, 2⟩, ⟨2707, 110000, 90000, 2⟩, ⟨2708, 110000, 95000, 2⟩, ⟨2709, 110000, 100000, 2⟩, ⟨2710, 110000, 105000, 2⟩,
  ⟨2711, 110000, 110000, 2⟩, ⟨2712, 110000, 115000, 2⟩, ⟨2713, 110000, 120000, 2⟩, ⟨2714, 110000, 125000, 2⟩, ⟨2715, 110000, 130000, 2⟩,
  ⟨2716, 110000, 135000, 2⟩, ⟨2717, 110000, 140000, 2⟩, ⟨2718, 110000, 145000, 2⟩, ⟨2719, 110000, 150000, 2⟩, ⟨2720, 110000, 155000, 2⟩,
  ⟨2721, 110000, 160000, 2⟩, ⟨2722, 110000, 165000, 2⟩, ⟨2723, 110000, 170000, 2⟩, ⟨2724, 110000, 175000, 2⟩, ⟨2725, 110000, 180000, 2⟩,
  ⟨2726, 110000, 185000, 2⟩, ⟨2727, 110000, 190000, 2⟩, ⟨2728, 110000, 195000, 2⟩, ⟨2729, 110000, 200000, 2⟩, ⟨2730, 110000, 205000, 2⟩]

/-- `fileDecoder.csv`:2732-2801 -/
def decoderChunk39 : List DecRow := [
  ⟨2731, 110000, 210000, 2⟩, ⟨2732, 110000, 215000, 2⟩, ⟨2733, 110000, 220000, 2⟩, ⟨2734, 110000, 225000, 2⟩, ⟨2735, 110000, 230000, 2⟩,
  ⟨2736, 110000, 235000, 2⟩, ⟨2737, 110000, 240000, 2⟩, ⟨2738, 110000, 245000, 2⟩, ⟨2739, 110000, 250000, 2⟩, ⟨2740, 110000, 255000, 2⟩,
  ⟨2741, 110000, 260000, 2⟩, ⟨2742, 110000, 265000, 2⟩, ⟨2743, 110000, 270000, 2⟩, ⟨2744, 110000, 275000, 2⟩, ⟨2745, 110000, 280000, 2⟩,
  ⟨2746, 110000, 285000, 2⟩, ⟨2747, 110000, 290000, 2⟩, ⟨2748, 110000, 295000, 2⟩, ⟨2749, 110000, 300000, 2⟩, ⟨2750, 120000, 0, 2⟩,
  ⟨2751, 120000, 100, 2⟩, ⟨2752, 120000, 500, 2⟩, ⟨2753, 120000, 1000, 2⟩, ⟨2754, 120000, 2000, 2⟩, ⟨2755, 120000, 3000, 2⟩,
  ⟨2756, 120000, 4000, 2⟩, ⟨2757, 120000, 5000, 2⟩, ⟨2758, 120000, 6000, 2⟩, ⟨2759, 120000, 7000, 2⟩, ⟨2760, 120000, 8000, 2⟩,
  ⟨2761, 120000, 9000, 2⟩, ⟨2762, 120000, 10000, 2⟩, ⟨2763, 120000, 11000, 2⟩, ⟨2764, 120000, 12000, 2⟩, ⟨2765, 120000, 13000, 2⟩,
  ⟨2766, 120000, 14000, 2⟩, ⟨2767, 120000, 15000, 2⟩, ⟨2768, 120000, 16000, 2⟩, ⟨2769, 120000, 17000, 2⟩, ⟨2770, 120000, 18000, 2⟩,
  ⟨2771, 120000, 19000, 2⟩, ⟨2772, 120000, 20000, 2⟩, ⟨2773, 120000, 22000, 2⟩, ⟨2774, 120000, 24000, 2⟩, ⟨2775, 120000, 26000, 2⟩,
  ⟨2776, 120000, 28000, 2⟩, ⟨2777, 120000, 30000, 2⟩, ⟨2778, 120000, 32000, 2⟩, ⟨2779, 120000, 34000, 2⟩, ⟨2780, 120000, 36000, 2⟩,
  ⟨2781, 120000, 38000, 2⟩, ⟨2782, 120000, 40000, 2⟩, ⟨2783, 120000, 42000, 2⟩, ⟨2784, 120000, 44000, 2⟩, ⟨2785, 120000, 46000, 2⟩,
  ⟨2786, 120000, 48000, 2⟩, ⟨2787, 120000, 50000, 2⟩, ⟨2788, 120000, 52000, 2⟩, ⟨2789, 120000, 54000, 2⟩, ⟨2790, 120000, 56000, 2⟩,
  ⟨2791, 120000, 58000, 2⟩, ⟨2792, 120000, 60000, 2⟩, ⟨2793, 120000, 62000, 2⟩, ⟨2794, 120000, 64000, 2⟩, ⟨2795, 120000, 66000, 2⟩,
  ⟨2796, 120000, 68000, 2⟩, ⟨2797, 120000, 70000, 2⟩, ⟨2798, 120000, 72000, 2⟩, ⟨2799, 120000, 74000, 2⟩, ⟨2800, 120000, 76000, 2⟩]

/-- `fileDecoder.csv`:2802-2871 -/
def decoderChunk40 : List DecRow := [
  ⟨2801, 120000, 78000, 2⟩, ⟨2802, 120000, 80000, 2⟩, ⟨2803, 120000, 85000, 2⟩, ⟨2804, 120000, 90000, 2⟩, ⟨2805, 120000, 95000, 2⟩,
  ⟨2806, 120000, 100000, 2⟩, ⟨2807, 120000, 105000, 2⟩, ⟨2808, 120000, 110000, 2⟩, ⟨2809, 120000, 115000, 2⟩, ⟨2810, 120000, 120000, 2⟩,
  ⟨2811, 120000, 125000, 2⟩, ⟨2812, 120000, 130000, 2⟩, ⟨2813, 120000, 135000, 2⟩, ⟨2814, 120000, 140000, 2⟩, ⟨2815, 120000, 145000, 2⟩,
  ⟨2816, 120000, 150000, 2⟩, ⟨2817, 120000, 155000, 2⟩, ⟨2818, 120000, 160000, 2⟩, ⟨2819, 120000, 165000, 2⟩, ⟨2820, 120000, 170000, 2⟩,
  ⟨2821, 120000, 175000, 2⟩, ⟨2822, 120000, 180000, 2⟩, ⟨2823, 120000, 185000, 2⟩, ⟨2824, 120000, 190000, 2⟩, ⟨2825, 120000, 195000, 2⟩,
  ⟨2826, 120000, 200000, 2⟩, ⟨2827, 120000, 205000, 2⟩, ⟨2828, 120000, 210000, 2⟩, ⟨2829, 120000, 215000, 2⟩, ⟨2830, 120000, 220000, 2⟩,
  ⟨2831, 120000, 225000, 2⟩, ⟨2832, 120000, 230000, 2⟩, ⟨2833, 120000, 235000, 2⟩, ⟨2834, 120000, 240000, 2⟩, ⟨2835, 120000, 245000, 2⟩,
  ⟨2836, 120000, 250000, 2⟩, ⟨2837, 120000, 255000, 2⟩, ⟨2838, 120000, 260000, 2⟩, ⟨2839, 120000, 265000, 2⟩, ⟨2840, 120000, 270000, 2⟩,
  ⟨2841, 120000, 275000, 2⟩, ⟨2842, 120000, 280000, 2⟩, ⟨2843, 120000, 285000, 2⟩, ⟨2844, 120000, 290000, 2⟩, ⟨2845, 120000, 295000, 2⟩,
  ⟨2846, 120000, 300000, 2⟩, ⟨2847, 140000, 0, 2⟩, ⟨2848, 140000, 100, 2⟩, ⟨2849, 140000, 500, 2⟩, ⟨2850, 140000, 1000, 2⟩,
  ⟨2851, 140000, 2000, 2⟩, ⟨2852, 140000, 3000, 2⟩, ⟨2853, 140000, 4000, 2⟩, ⟨2854, 140000, 5000, 2⟩, ⟨2855, 140000, 6000, 2⟩,
  ⟨2856, 140000, 7000, 2⟩, ⟨2857, 140000, 8000, 2⟩, ⟨2858, 140000, 9000, 2⟩, ⟨2859, 140000, 10000, 2⟩, ⟨2860, 140000, 11000, 2⟩,
  ⟨2861, 140000, 12000, 2⟩, ⟨2862, 140000, 13000, 2⟩, ⟨2863, 140000, 14000, 2⟩, ⟨2864, 140000, 15000, 2⟩, ⟨2865, 140000, 16000, 2⟩,
  ⟨2866, 140000, 17000, 2⟩, ⟨2867, 140000, 18000, 2⟩, ⟨2868, 140000, 19000, 2⟩, ⟨2869, 140000, 20000, 2⟩, ⟨2870, 140000, 22000, 2⟩]

/-- `fileDecoder.csv`:2872-2941 -/
def decoderChunk41 : List DecRow := [
  ⟨2871, 140000, 24000, 2⟩, ⟨2872, 140000, 26000, 2⟩, ⟨2873, 140000, 28000, 2⟩, ⟨2874, 140000, 30000, 2⟩, ⟨2875, 140000, 32000, 2⟩,
  ⟨2876, 140000, 34000, 2⟩, ⟨2877, 140000, 36000, 2⟩, ⟨2878, 140000, 38000, 2⟩, ⟨2879, 140000, 40000, 2⟩, ⟨2880, 140000, 42000, 2⟩,
  ⟨2881, 140000, 44000, 2⟩, ⟨2882, 140000, 46000, 2⟩, ⟨2883, 140000, 48000, 2⟩, ⟨2884, 140000, 50000, 2⟩, ⟨2885, 140000, 52000, 2⟩,
  ⟨2886, 140000, 54000, 2⟩, ⟨2887, 140000, 56000, 2⟩, ⟨2888, 140000, 58000, 2⟩, ⟨2889, 140000, 60000, 2⟩, ⟨2890, 140000, 62000, 2⟩,
  ⟨2891, 140000, 64000, 2⟩, ⟨2892, 140000, 66000, 2⟩, ⟨2893, 140000, 68000, 2⟩, ⟨2894, 140000, 70000, 2⟩, ⟨2895, 140000, 72000, 2⟩,
  ⟨2896, 140000, 74000, 2⟩, ⟨2897, 140000, 76000, 2⟩, ⟨2898, 140000, 78000, 2⟩, ⟨2899, 140000, 80000, 2⟩, ⟨2900, 140000, 85000, 2⟩,
  ⟨2901, 140000, 90000, 2⟩, ⟨2902, 140000, 95000, 2⟩, ⟨2903, 140000, 100000, 2⟩, ⟨2904, 140000, 105000, 2⟩, ⟨2905, 140000, 110000, 2⟩,
  ⟨2906, 140000, 115000, 2⟩, ⟨2907, 140000, 120000, 2⟩, ⟨2908, 140000, 125000, 2⟩, ⟨2909, 140000, 130000, 2⟩, ⟨2910, 140000, 135000, 2⟩,
  ⟨2911, 140000, 140000, 2⟩, ⟨2912, 140000, 145000, 2⟩, ⟨2913, 140000, 150000, 2⟩, ⟨2914, 140000, 155000, 2⟩, ⟨2915, 140000, 160000, 2⟩,
  ⟨2916, 140000, 165000, 2⟩, ⟨2917, 140000, 170000, 2⟩, ⟨2918, 140000, 175000, 2⟩, ⟨2919, 140000, 180000, 2⟩, ⟨2920, 140000, 185000, 2⟩,
  ⟨2921, 140000, 190000, 2⟩, ⟨2922, 140000, 195000, 2⟩, ⟨2923, 140000, 200000, 2⟩, ⟨2924, 140000, 205000, 2⟩, ⟨2925, 140000, 210000, 2⟩,
  ⟨2926, 140000, 215000, 2⟩, ⟨2927, 140000, 220000, 2⟩, ⟨2928, 140000, 225000, 2⟩, ⟨2929, 140000, 230000, 2⟩, ⟨2930, 140000, 235000, 2⟩,
  ⟨2931, 140000, 240000, 2⟩, ⟨2932, 140000, 245000, 2⟩, ⟨2933, 140000, 250000, 2⟩, ⟨2934, 140000, 255000, 2⟩, ⟨2935, 140000, 260000, 2⟩,
  ⟨2936, 140000, 265000, 2⟩, ⟨2937, 140000, 270000, 2⟩, ⟨2938, 140000, 275000, 2⟩, ⟨2939, 140000, 280000, 2⟩, ⟨2940, 140000, 285000, 2⟩]

/-- `fileDecoder.csv`:2942-3011 -/
def decoderChunk42 : List DecRow := [
  ⟨2941, 140000, 290000, 2⟩, ⟨2942, 140000, 295000, 2⟩, ⟨2943, 140000, 300000, 2⟩, ⟨2944, 160000, 0, 2⟩, ⟨2945, 160000, 100, 2⟩,
  ⟨2946, 160000, 500, 2⟩, ⟨2947, 160000, 1000, 2⟩, ⟨2948, 160000, 2000, 2⟩, ⟨2949, 160000, 3000, 2⟩, ⟨2950, 160000, 4000, 2⟩,
  ⟨2951, 160000, 5000, 2⟩, ⟨2952, 160000, 6000, 2⟩, ⟨2953, 160000, 7000, 2⟩, ⟨2954, 160000, 8000, 2⟩, ⟨2955, 160000, 9000, 2⟩,
  ⟨2956, 160000, 10000, 2⟩, ⟨2957, 160000, 11000, 2⟩, ⟨2958, 160000, 12000, 2⟩, ⟨2959, 160000, 13000, 2⟩, ⟨2960, 160000, 14000, 2⟩,
  ⟨2961, 160000, 15000, 2⟩, ⟨2962, 160000, 16000, 2⟩, ⟨2963, 160000, 17000, 2⟩, ⟨2964, 160000, 18000, 2⟩, ⟨2965, 160000, 19000, 2⟩,
  ⟨2966, 160000, 20000, 2⟩, ⟨2967, 160000, 22000, 2⟩, ⟨2968, 160000, 24000, 2⟩, ⟨2969, 160000, 26000, 2⟩, ⟨2970, 160000, 28000, 2⟩,
  ⟨2971, 160000, 30000, 2⟩, ⟨2972, 160000, 32000, 2⟩, ⟨2973, 160000, 34000, 2⟩, ⟨2974, 160000, 36000, 2⟩, ⟨2975, 160000, 38000, 2⟩,
  ⟨2976, 160000, 40000, 2⟩, ⟨2977, 160000, 42000, 2⟩, ⟨2978, 160000, 44000, 2⟩, ⟨2979, 160000, 46000, 2⟩, ⟨2980, 160000, 48000, 2⟩,
  ⟨2981, 160000, 50000, 2⟩, ⟨2982, 160000, 52000, 2⟩, ⟨2983, 160000, 54000, 2⟩, ⟨2984, 160000, 56000, 2⟩, ⟨2985, 160000, 58000, 2⟩,
  ⟨2986, 160000, 60000, 2⟩, ⟨2987, 160000, 62000, 2⟩, ⟨2988, 160000, 64000, 2⟩, ⟨2989, 160000, 66000, 2⟩, ⟨2990, 160000, 68000, 2⟩,
  ⟨2991, 160000, 70000, 2⟩, ⟨2992, 160000, 72000, 2⟩, ⟨2993, 160000, 74000, 2⟩, ⟨2994, 160000, 76000, 2⟩, ⟨2995, 160000, 78000, 2⟩,
  ⟨2996, 160000, 80000, 2⟩, ⟨2997, 160000, 85000, 2⟩, ⟨2998, 160000, 90000, 2⟩, ⟨2999, 160000, 95000, 2⟩, ⟨3000, 160000, 100000, 2⟩,
  ⟨3001, 160000, 105000, 2⟩, ⟨3002, 160000, 110000, 2⟩, ⟨3003, 160000, 115000, 2⟩, ⟨3004, 160000, 120000, 2⟩, ⟨3005, 160000, 125000, 2⟩,
  ⟨3006, 160000, 130000, 2⟩, ⟨3007, 160000, 135000, 2⟩, ⟨3008, 160000, 140000, 2⟩, ⟨3009, 160000, 145000, 2⟩, ⟨3010, 160000, 150000, 2⟩]

/-- `fileDecoder.csv`:3012-3081 -/
def decoderChunk43 : List DecRow := [
  ⟨3011, 160000, 155000, 2⟩, ⟨3012, 160000, 160000, 2⟩, ⟨3013, 160000, 165000, 2⟩, ⟨3014, 160000, 170000, 2⟩, ⟨3015, 160000, 175000, 2⟩,
  ⟨3016, 160000, 180000, 2⟩, ⟨3017, 160000, 185000, 2⟩, ⟨3018, 160000, 190000, 2⟩, ⟨3019, 160000, 195000, 2⟩, ⟨3020, 160000, 200000, 2⟩,
  ⟨3021, 160000, 205000, 2⟩, ⟨3022, 160000, 210000, 2⟩, ⟨3023, 160000, 215000, 2⟩, ⟨3024, 160000, 220000, 2⟩, ⟨3025, 160000, 225000, 2⟩,
  ⟨3026, 160000, 230000, 2⟩, ⟨3027, 160000, 235000, 2⟩, ⟨3028, 160000, 240000, 2⟩, ⟨3029, 160000, 245000, 2⟩, ⟨3030, 160000, 250000, 2⟩,
  ⟨3031, 160000, 255000, 2⟩, ⟨3032, 160000, 260000, 2⟩, ⟨3033, 160000, 265000, 2⟩, ⟨3034, 160000, 270000, 2⟩, ⟨3035, 160000, 275000, 2⟩,
  ⟨3036, 160000, 280000, 2⟩, ⟨3037, 160000, 285000, 2⟩, ⟨3038, 160000, 290000, 2⟩, ⟨3039, 160000, 295000, 2⟩, ⟨3040, 160000, 300000, 2⟩,
  ⟨3041, 180000, 0, 2⟩, ⟨3042, 180000, 100, 2⟩, ⟨3043, 180000, 500, 2⟩, ⟨3044, 180000, 1000, 2⟩, ⟨3045, 180000, 2000, 2⟩,
  ⟨3046, 180000, 3000, 2⟩, ⟨3047, 180000, 4000, 2⟩, ⟨3048, 180000, 5000, 2⟩, ⟨3049, 180000, 6000, 2⟩, ⟨3050, 180000, 7000, 2⟩,
  ⟨3051, 180000, 8000, 2⟩, ⟨3052, 180000, 9000, 2⟩, ⟨3053, 180000, 10000, 2⟩, ⟨3054, 180000, 11000, 2⟩, ⟨3055, 180000, 12000, 2⟩,
  ⟨3056, 180000, 13000, 2⟩, ⟨3057, 180000, 14000, 2⟩, ⟨3058, 180000, 15000, 2⟩, ⟨3059, 180000, 16000, 2⟩, ⟨3060, 180000, 17000, 2⟩,
  ⟨3061, 180000, 18000, 2⟩, ⟨3062, 180000, 19000, 2⟩, ⟨3063, 180000, 20000, 2⟩, ⟨3064, 180000, 22000, 2⟩, ⟨3065, 180000, 24000, 2⟩,
  ⟨3066, 180000, 26000, 2⟩, ⟨3067, 180000, 28000, 2⟩, ⟨3068, 180000, 30000, 2⟩, ⟨3069, 180000, 32000, 2⟩, ⟨3070, 180000, 34000, 2⟩,
  ⟨3071, 180000, 36000, 2⟩, ⟨3072, 180000, 38000, 2⟩, ⟨3073, 180000, 40000, 2⟩, ⟨3074, 180000, 42000, 2⟩, ⟨3075, 180000, 44000, 2⟩,
  ⟨3076, 180000, 46000, 2⟩, ⟨3077, 180000, 48000, 2⟩, ⟨3078, 180000, 50000, 2⟩, ⟨3079, 180000, 52000, 2⟩, ⟨3080, 180000, 54000, 2⟩]

/-- `fileDecoder.csv`:3082-3151 -/
def decoderChunk44 : List DecRow := [
  ⟨3081, 180000, 56000, 2⟩, ⟨3082, 180000, 58000, 2⟩, ⟨3083, 180000, 60000, 2⟩, ⟨3084, 180000, 62000, 2⟩, ⟨3085, 180000, 64000, 2⟩,
  ⟨3086, 180000, 66000, 2⟩, ⟨3087, 180000, 68000, 2⟩, ⟨3088, 180000, 70000, 2⟩, ⟨3089, 180000, 72000, 2⟩, ⟨3090, 180000, 74000, 2⟩,
  ⟨3091, 180000, 76000, 2⟩, ⟨3092, 180000, 78000, 2⟩, ⟨3093, 180000, 80000, 2⟩, ⟨3094, 180000, 85000, 2⟩, ⟨3095, 180000, 90000, 2⟩,
  ⟨3096, 180000, 95000, 2⟩, ⟨3097, 180000, 100000, 2⟩, ⟨3098, 180000, 105000, 2⟩, ⟨3099, 180000, 110000, 2⟩, ⟨3100, 180000, 115000, 2⟩,
  ⟨3101, 180000, 120000, 2⟩, ⟨3102, 180000, 125000, 2⟩, ⟨3103, 180000, 130000, 2⟩, ⟨3104, 180000, 135000, 2⟩, ⟨3105, 180000, 140000, 2⟩,
  ⟨3106, 180000, 145000, 2⟩, ⟨3107, 180000, 150000, 2⟩, ⟨3108, 180000, 155000, 2⟩, ⟨3109, 180000, 160000, 2⟩, ⟨3110, 180000, 165000, 2⟩,
  ⟨3111, 180000, 170000, 2⟩, ⟨3112, 180000, 175000, 2⟩, ⟨3113, 180000, 180000, 2⟩, ⟨3114, 180000, 185000, 2⟩, ⟨3115, 180000, 190000, 2⟩,
  ⟨3116, 180000, 195000, 2⟩, ⟨3117, 180000, 200000, 2⟩, ⟨3118, 180000, 205000, 2⟩, ⟨3119, 180000, 210000, 2⟩, ⟨3120, 180000, 215000, 2⟩,
  ⟨3121, 180000, 220000, 2⟩, ⟨3122, 180000, 225000, 2⟩, ⟨3123, 180000, 230000, 2⟩, ⟨3124, 180000, 235000, 2⟩, ⟨3125, 180000, 240000, 2⟩,
  ⟨3126, 180000, 245000, 2⟩, ⟨3127, 180000, 250000, 2⟩, ⟨3128, 180000, 255000, 2⟩, ⟨3129, 180000, 260000, 2⟩, ⟨3130, 180000, 265000, 2⟩,
  ⟨3131, 180000, 270000, 2⟩, ⟨3132, 180000, 275000, 2⟩, ⟨3133, 180000, 280000, 2⟩, ⟨3134, 180000, 285000, 2⟩, ⟨3135, 180000, 290000, 2⟩,
  ⟨3136, 180000, 295000, 2⟩, ⟨3137, 180000, 300000, 2⟩, ⟨3138, 200000, 0, 2⟩, ⟨3139, 200000, 100, 2⟩, ⟨3140, 200000, 500, 2⟩,
  ⟨3141, 200000, 1000, 2⟩, ⟨3142, 200000, 2000, 2⟩, ⟨3143, 200000, 3000, 2⟩, ⟨3144, 200000, 4000, 2⟩, ⟨3145, 200000, 5000, 2⟩,
  ⟨3146, 200000, 6000, 2⟩, ⟨3147, 200000, 7000, 2⟩, ⟨3148, 200000, 8000, 2⟩, ⟨3149, 200000, 9000, 2⟩, ⟨3150, 200000, 10000, 2⟩]

/-- `fileDecoder.csv`:3152-3221 -/
def decoderChunk45 : List DecRow := [
  ⟨3151, 200000, 11000, 2⟩, ⟨3152, 200000, 12000, 2⟩, ⟨3153, 200000, 13000, 2⟩, ⟨3154, 200000, 14000, 2⟩, ⟨3155, 200000, 15000, 2⟩,
  ⟨3156, 200000, 16000, 2⟩, ⟨3157, 200000, 17000, 2⟩, ⟨3158, 200000, 18000, 2⟩, ⟨3159, 200000, 19000, 2⟩, ⟨3160, 200000, 20000, 2⟩,
  ⟨3161, 200000, 22000, 2⟩, ⟨3162, 200000, 24000, 2⟩, ⟨3163, 200000, 26000, 2⟩, ⟨3164, 200000, 28000, 2⟩, ⟨3165, 200000, 30000, 2⟩,
  ⟨3166, 200000, 32000, 2⟩, ⟨3167, 200000, 34000, 2⟩, ⟨3168, 200000, 36000, 2⟩, ⟨3169, 200000, 38000, 2⟩, ⟨3170, 200000, 40000, 2⟩,
  ⟨3171, 200000, 42000, 2⟩, ⟨3172, 200000, 44000, 2⟩, ⟨3173, 200000, 46000, 2⟩, ⟨3174, 200000, 48000, 2⟩, ⟨3175, 200000, 50000, 2⟩,
  ⟨3176, 200000, 52000, 2⟩, ⟨3177, 200000, 54000, 2⟩, ⟨3178, 200000, 56000, 2⟩, ⟨3179, 200000, 58000, 2⟩, ⟨3180, 200000, 60000, 2⟩,
  ⟨3181, 200000, 62000, 2⟩, ⟨3182, 200000, 64000, 2⟩, ⟨3183, 200000, 66000, 2⟩, ⟨3184, 200000, 68000, 2⟩, ⟨3185, 200000, 70000, 2⟩,
  ⟨3186, 200000, 72000, 2⟩, ⟨3187, 200000, 74000, 2⟩, ⟨3188, 200000, 76000, 2⟩, ⟨3189, 200000, 78000, 2⟩, ⟨3190, 200000, 80000, 2⟩,
  ⟨3191, 200000, 85000, 2⟩, ⟨3192, 200000, 90000, 2⟩, ⟨3193, 200000, 95000, 2⟩, ⟨3194, 200000, 100000, 2⟩, ⟨3195, 200000, 105000, 2⟩,
  ⟨3196, 200000, 110000, 2⟩, ⟨3197, 200000, 115000, 2⟩, ⟨3198, 200000, 120000, 2⟩, ⟨3199, 200000, 125000, 2⟩, ⟨3200, 200000, 130000, 2⟩,
  ⟨3201, 200000, 135000, 2⟩, ⟨3202, 200000, 140000, 2⟩, ⟨3203, 200000, 145000, 2⟩, ⟨3204, 200000, 150000, 2⟩, ⟨3205, 200000, 155000, 2⟩,
  ⟨3206, 200000, 160000, 2⟩, ⟨3207, 200000, 165000, 2⟩, ⟨3208, 200000, 170000, 2⟩, ⟨3209, 200000, 175000, 2⟩, ⟨3210, 200000, 180000, 2⟩,
  ⟨3211, 200000, 185000, 2⟩, ⟨3212, 200000, 190000, 2⟩, ⟨3213, 200000, 195000, 2⟩, ⟨3214, 200000, 200000, 2⟩, ⟨3215, 200000, 205000, 2⟩,
  ⟨3216, 200000, 210000, 2⟩, ⟨3217, 200000, 215000, 2⟩, ⟨3218, 200000, 220000, 2⟩, ⟨3219, 200000, 225000, 2⟩, ⟨3220, 200000, 230000, 2⟩]

/-- `fileDecoder.csv`:3222-3291 -/
def decoderChunk46 : List DecRow := [
  ⟨3221, 200000, 235000, 2⟩, ⟨3222, 200000, 240000, 2⟩, ⟨3223, 200000, 245000, 2⟩, ⟨3224, 200000, 250000, 2⟩, ⟨3225, 200000, 255000, 2⟩,
  ⟨3226, 200000, 260000, 2⟩, ⟨3227, 200000, 265000, 2⟩, ⟨3228, 200000, 270000, 2⟩, ⟨3229, 200000, 275000, 2⟩, ⟨3230, 200000, 280000, 2⟩,
  ⟨3231, 200000, 285000, 2⟩, ⟨3232, 200000, 290000, 2⟩, ⟨3233, 200000, 295000, 2⟩, ⟨3234, 200000, 300000, 2⟩, ⟨3235, 245000, 0, 1⟩,
  ⟨3236, 245000, 100, 1⟩, ⟨3237, 245000, 500, 1⟩, ⟨3238, 245000, 1000, 1⟩, ⟨3239, 245000, 2000, 1⟩, ⟨3240, 245000, 3000, 1⟩,
  ⟨3241, 245000, 4000, 1⟩, ⟨3242, 245000, 5000, 1⟩, ⟨3243, 245000, 6000, 1⟩, ⟨3244, 245000, 7000, 1⟩, ⟨3245, 245000, 8000, 1⟩,
  ⟨3246, 245000, 9000, 1⟩, ⟨3247, 245000, 10000, 1⟩, ⟨3248, 245000, 11000, 1⟩, ⟨3249, 245000, 12000, 1⟩, ⟨3250, 245000, 13000, 1⟩,
  ⟨3251, 245000, 14000, 1⟩, ⟨3252, 245000, 15000, 1⟩, ⟨3253, 245000, 16000, 1⟩, ⟨3254, 245000, 17000, 1⟩, ⟨3255, 245000, 18000, 1⟩,
  ⟨3256, 245000, 19000, 1⟩, ⟨3257, 245000, 20000, 1⟩, ⟨3258, 245000, 22000, 1⟩, ⟨3259, 245000, 24000, 1⟩, ⟨3260, 245000, 26000, 1⟩,
  ⟨3261, 245000, 28000, 1⟩, ⟨3262, 245000, 30000, 1⟩, ⟨3263, 245000, 32000, 1⟩, ⟨3264, 245000, 34000, 1⟩, ⟨3265, 245000, 36000, 1⟩,
  ⟨3266, 245000, 38000, 1⟩, ⟨3267, 245000, 40000, 1⟩, ⟨3268, 245000, 42000, 1⟩, ⟨3269, 245000, 44000, 1⟩, ⟨3270, 245000, 46000, 1⟩,
  ⟨3271, 245000, 48000, 1⟩, ⟨3272, 245000, 50000, 1⟩, ⟨3273, 245000, 52000, 1⟩, ⟨3274, 245000, 54000, 1⟩, ⟨3275, 245000, 56000, 1⟩,
  ⟨3276, 245000, 58000, 1⟩, ⟨3277, 245000, 60000, 1⟩, ⟨3278, 245000, 62000, 1⟩, ⟨3279, 245000, 64000, 1⟩, ⟨3280, 245000, 66000, 1⟩,
  ⟨3281, 245000, 68000, 1⟩, ⟨3282, 245000, 70000, 1⟩, ⟨3283, 245000, 72000, 1⟩, ⟨3284, 245000, 74000, 1⟩, ⟨3285, 245000, 76000, 1⟩,
  ⟨3286, 245000, 78000, 1⟩, ⟨3287, 245000, 80000, 1⟩, ⟨3288, 245000, 85000, 1⟩, ⟨3289, 245000, 90000, 1⟩, ⟨3290, 245000, 95000, 1⟩]

/-- `fileDecoder.csv`:3292-3361 -/
def decoderChunk47 : List DecRow := [
  ⟨3291, 245000, 100000, 1⟩, ⟨3292, 245000, 105000, 1⟩, ⟨3293, 245000, 110000, 1⟩, ⟨3294, 245000, 115000, 1⟩, ⟨3295, 245000, 120000, 1⟩,
  ⟨3296, 245000, 125000, 1⟩, ⟨3297, 245000, 130000, 1⟩, ⟨3298, 245000, 135000, 1⟩, ⟨3299, 245000, 140000, 1⟩, ⟨3300, 245000, 145000, 1⟩,
  ⟨3301, 245000, 150000, 1⟩, ⟨3302, 245000, 155000, 1⟩, ⟨3303, 245000, 160000, 1⟩, ⟨3304, 245000, 165000, 1⟩, ⟨3305, 245000, 170000, 1⟩,
  ⟨3306, 245000, 175000, 1⟩, ⟨3307, 245000, 180000, 1⟩, ⟨3308, 245000, 185000, 1⟩, ⟨3309, 245000, 190000, 1⟩, ⟨3310, 245000, 195000, 1⟩,
  ⟨3311, 245000, 200000, 1⟩, ⟨3312, 245000, 205000, 1⟩, ⟨3313, 245000, 210000, 1⟩, ⟨3314, 245000, 215000, 1⟩, ⟨3315, 245000, 220000, 1⟩,
  ⟨3316, 245000, 225000, 1⟩, ⟨3317, 245000, 230000, 1⟩, ⟨3318, 245000, 235000, 1⟩, ⟨3319, 245000, 240000, 1⟩, ⟨3320, 245000, 245000, 1⟩,
  ⟨3321, 245000, 250000, 1⟩, ⟨3322, 245000, 255000, 1⟩, ⟨3323, 245000, 260000, 1⟩, ⟨3324, 245000, 265000, 1⟩, ⟨3325, 245000, 270000, 1⟩,
  ⟨3326, 245000, 275000, 1⟩, ⟨3327, 245000, 280000, 1⟩, ⟨3328, 245000, 285000, 1⟩, ⟨3329, 245000, 290000, 1⟩, ⟨3330, 245000, 295000, 1⟩,
  ⟨3331, 245000, 300000, 1⟩, ⟨3332, 245000, 0, 2⟩, ⟨3333, 245000, 100, 2⟩, ⟨3334, 245000, 500, 2⟩, ⟨3335, 245000, 1000, 2⟩,
  ⟨3336, 245000, 2000, 2⟩, ⟨3337, 245000, 3000, 2⟩, ⟨3338, 245000, 4000, 2⟩, ⟨3339, 245000, 5000, 2⟩, ⟨3340, 245000, 6000, 2⟩,
  ⟨3341, 245000, 7000, 2⟩, ⟨3342, 245000, 8000, 2⟩, ⟨3343, 245000, 9000, 2⟩, ⟨3344, 245000, 10000, 2⟩, ⟨3345, 245000, 11000, 2⟩,
  ⟨3346, 245000, 12000, 2⟩, ⟨3347, 245000, 13000, 2⟩, ⟨3348, 245000, 14000, 2⟩, ⟨3349, 245000, 15000, 2⟩, ⟨3350, 245000, 16000, 2⟩,
  ⟨3351, 245000, 17000, 2⟩, ⟨3352, 245000, 18000, 2⟩, ⟨3353, 245000, 19000, 2⟩, ⟨3354, 245000, 20000, 2⟩, ⟨3355, 245000, 22000, 2⟩,
  ⟨3356, 245000, 24000, 2⟩, ⟨3357, 245000, 26000, 2⟩, ⟨3358, 245000, 28000, 2⟩, ⟨3359, 245000, 30000, 2⟩, ⟨3360, 245000, 32000, 2⟩]

/-- `fileDecoder.csv`:3362-3431 -/
def decoderChunk48 : List DecRow := [
  ⟨3361, 245000, 34000, 2⟩, ⟨3362, 245000, 36000, 2⟩, ⟨3363, 245000, 38000, 2⟩, ⟨3364, 245000, 40000, 2⟩, ⟨3365, 245000, 42000, 2⟩,
  ⟨3366, 245000, 44000, 2⟩, ⟨3367, 245000, 46000, 2⟩, ⟨3368, 245000, 48000, 2⟩, ⟨3369, 245000, 50000, 2⟩, ⟨3370, 245000, 52000, 2⟩,
  ⟨3371, 245000, 54000, 2⟩, ⟨3372, 245000, 56000, 2⟩, ⟨3373, 245000, 58000, 2⟩, ⟨3374, 245000, 60000, 2⟩, ⟨3375, 245000, 62000, 2⟩,
  ⟨3376, 245000, 64000, 2⟩, ⟨3377, 245000, 66000, 2⟩, ⟨3378, 245000, 68000, 2⟩, ⟨3379, 245000, 70000, 2⟩, ⟨3380, 245000, 72000, 2⟩,
  ⟨3381, 245000, 74000, 2⟩, ⟨3382, 245000, 76000, 2⟩, ⟨3383, 245000, 78000, 2⟩, ⟨3384, 245000, 80000, 2⟩, ⟨3385, 245000, 85000, 2⟩,
  ⟨3386, 245000, 90000, 2⟩, ⟨3387, 245000, 95000, 2⟩, ⟨3388, 245000, 100000, 2⟩, ⟨3389, 245000, 105000, 2⟩, ⟨3390, 245000, 110000, 2⟩,
  ⟨3391, 245000, 115000, 2⟩, ⟨3392, 245000, 120000, 2⟩, ⟨3393, 245000, 125000, 2⟩, ⟨3394, 245000, 130000, 2⟩, ⟨3395, 245000, 135000, 2⟩,
  ⟨3396, 245000, 140000, 2⟩, ⟨3397, 245000, 145000, 2⟩, ⟨3398, 245000, 150000, 2⟩, ⟨3399, 245000, 155000, 2⟩, ⟨3400, 245000, 160000, 2⟩,
  ⟨3401, 245000, 165000, 2⟩, ⟨3402, 245000, 170000, 2⟩, ⟨3403, 245000, 175000, 2⟩, ⟨3404, 245000, 180000, 2⟩, ⟨3405, 245000, 185000, 2⟩,
  ⟨3406, 245000, 190000, 2⟩, ⟨3407, 245000, 195000, 2⟩, ⟨3408, 245000, 200000, 2⟩, ⟨3409, 245000, 205000, 2⟩, ⟨3410, 245000, 210000, 2⟩,
  ⟨3411, 245000, 215000, 2⟩, ⟨3412, 245000, 220000, 2⟩, ⟨3413, 245000, 225000, 2⟩, ⟨3414, 245000, 230000, 2⟩, ⟨3415, 245000, 235000, 2⟩,
  ⟨3416, 245000, 240000, 2⟩, ⟨3417, 245000, 245000, 2⟩, ⟨3418, 245000, 250000, 2⟩, ⟨3419, 245000, 255000, 2⟩, ⟨3420, 245000, 260000, 2⟩,
  ⟨3421, 245000, 265000, 2⟩, ⟨3422, 245000, 270000, 2⟩, ⟨3423, 245000, 275000, 2⟩, ⟨3424, 245000, 280000, 2⟩, ⟨3425, 245000, 285000, 2⟩,
  ⟨3426, 245000, 290000, 2⟩, ⟨3427, 245000, 295000, 2⟩, ⟨3428, 245000, 300000, 2⟩, ⟨3429, 5500000, 0, 1⟩, ⟨3430, 5500000, 0, 2⟩]

/-- All rows of `fileDecoder.csv`, in file order. -/
def decoderTable : List DecRow :=
  List.flatten [decoderChunk0,
    decoderChunk1,
    decoderChunk2,
    decoderChunk3,
    decoderChunk4,
    decoderChunk5,
    decoderChunk6,
    decoderChunk7,
    decoderChunk8,
    decoderChunk9,
    decoderChunk10,
    decoderChunk11,
    decoderChunk12,
    decoderChunk13,
    decoderChunk14,
    decoderChunk15,
    decoderChunk16,
    decoderChunk17,
    decoderChunk18,
    decoderChunk19,
    decoderChunk20,
    decoderChunk21,
    decoderChunk22,
    decoderChunk23,
    decoderChunk24,
    decoderChunk25,
    decoderChunk26,
    decoderChunk27,
    decoderChunk28,
    decoderChunk29,
    decoderChunk30,
    decoderChunk31,
    decoderChunk32,
    decoderChunk33,
    decoderChunk34,
    decoderChunk35,
    decoderChunk36,
    decoderChunk37,
    decoderChunk38,
    decoderChunk39,
    decoderChunk40,
    decoderChunk41,
    decoderChunk42,
    decoderChunk43,
    decoderChunk44,
    decoderChunk45,
    decoderChunk46,
    decoderChunk47,
    decoderChunk48]

end PyBSM
