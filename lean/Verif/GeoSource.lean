import Mathlib.Data.Nat.Notation

/-!
# The decimals of /repo/util/util.go

Generated from the source text.
-/

namespace ZkLoc

/-- A decimal literal: sign, digits without the point, number of digits after the point. -/
structure Decimal where
  neg : Bool
  digits : ℕ
  places : ℕ

/-- The literals of one face: centre point, sine and cosine of its latitude, longitude, azimuth. -/
structure FaceSource where
  px : Decimal
  py : Decimal
  pz : Decimal
  sinLat : Decimal
  cosLat : Decimal
  lng : Decimal
  az : Decimal

/-- /repo/util/util.go:71-93, 119-141, 214-283. -/
def source32 : List FaceSource := [
  ⟨⟨false, 2199307791404606, 16⟩, ⟨false, 6583691780274996, 16⟩, ⟨false, 7198475378926182, 16⟩,
   ⟨false, 719847537892618239, 18⟩, ⟨false, 694132208005028062, 18⟩, ⟨false, 1248397419617396099, 18⟩, ⟨false, 5619958268523939882, 18⟩⟩,
  ⟨⟨true, 2139234834501421, 16⟩, ⟨false, 1478171829550703, 16⟩, ⟨false, 9656017935214205, 16⟩,
   ⟨false, 965601793521420504, 18⟩, ⟨false, 260025337896551800, 18⟩, ⟨false, 2536945009877921159, 18⟩, ⟨false, 5760339081714187279, 18⟩⟩,
  ⟨⟨false, 1092625278784797, 16⟩, ⟨true, 4811951572873210, 16⟩, ⟨false, 8697775121287253, 16⟩,
   ⟨false, 869777512128725339, 18⟩, ⟨false, 493444099564646799, 18⟩, ⟨true, 1347517358900396623, 18⟩, ⟨false, 780213654393430055, 18⟩⟩,
  ⟨⟨false, 7428567301586791, 16⟩, ⟨true, 3593941678278028, 16⟩, ⟨false, 5648005936517033, 16⟩,
   ⟨false, 564800593651703320, 18⟩, ⟨false, 825227416783206214, 18⟩, ⟨true, 450603909469755746, 18⟩, ⟨false, 430469363979999913, 18⟩⟩,
  ⟨⟨false, 8112534709140969, 16⟩, ⟨false, 3448953237639384, 16⟩, ⟨false, 4721387736413930, 16⟩,
   ⟨false, 472138773641393006, 18⟩, ⟨false, 881524235868986983, 18⟩, ⟨false, 401988202911306943, 18⟩, ⟨false, 6130269123335111400, 18⟩⟩,
  ⟨⟨true, 1055498149613921, 16⟩, ⟨false, 9794457296411413, 16⟩, ⟨false, 1718874610009365, 16⟩,
   ⟨false, 171887461000936548, 18⟩, ⟨false, 985116592465405394, 18⟩, ⟨false, 1678146885280433686, 18⟩, ⟨false, 2692877706530642877, 18⟩⟩,
  ⟨⟨true, 8075407579970092, 16⟩, ⟨false, 1533552485898818, 16⟩, ⟨false, 5695261994882688, 16⟩,
   ⟨false, 569526199488268769, 18⟩, ⟨false, 821973179669780118, 18⟩, ⟨false, 2953923329812411617, 18⟩, ⟨false, 2982963003477243874, 18⟩⟩,
  ⟨⟨true, 2846148069787907, 16⟩, ⟨true, 8644080972654206, 16⟩, ⟨false, 4144792552473539, 16⟩,
   ⟨false, 414479255247353850, 18⟩, ⟨false, 910058760174088377, 18⟩, ⟨true, 1888876200336285401, 18⟩, ⟨false, 3532912002790141181, 18⟩⟩,
  ⟨⟨false, 7405621473854482, 16⟩, ⟨true, 6673299564565524, 16⟩, ⟨true, 789837646326737, 16⟩,
   ⟨true, 78983764632673703, 18⟩, ⟨false, 996875902469535280, 18⟩, ⟨true, 733429513380867741, 18⟩, ⟨false, 3494305004259568154, 18⟩⟩,
  ⟨⟨false, 8512303986474293, 16⟩, ⟨false, 4722343788582681, 16⟩, ⟨true, 2289137388687808, 16⟩,
   ⟨true, 228913738868780775, 18⟩, ⟨false, 973446711513843321, 18⟩, ⟨false, 506495587332349035, 18⟩, ⟨false, 3003214169499538391, 18⟩⟩,
  ⟨⟨true, 7405621473854481, 16⟩, ⟨false, 6673299564565524, 16⟩, ⟨false, 789837646326737, 16⟩,
   ⟨false, 78983764632673703, 18⟩, ⟨false, 996875902469535280, 18⟩, ⟨false, 2408163140208925497, 18⟩, ⟨false, 5930472956509811562, 18⟩⟩,
  ⟨⟨true, 8512303986474292, 16⟩, ⟨true, 4722343788582682, 16⟩, ⟨false, 2289137388687808, 16⟩,
   ⟨false, 228913738868780775, 18⟩, ⟨false, 973446711513843321, 18⟩, ⟨true, 2635097066257444203, 18⟩, ⟨false, 138378484090254847, 18⟩⟩,
  ⟨⟨false, 1055498149613919, 16⟩, ⟨true, 9794457296411413, 16⟩, ⟨true, 1718874610009365, 16⟩,
   ⟨true, 171887461000936548, 18⟩, ⟨false, 985116592465405394, 18⟩, ⟨true, 1463445768309359553, 18⟩, ⟨false, 448714947059150361, 18⟩⟩,
  ⟨⟨false, 8075407579970092, 16⟩, ⟨true, 1533552485898819, 16⟩, ⟨true, 5695261994882688, 16⟩,
   ⟨true, 569526199488268769, 18⟩, ⟨false, 821973179669780118, 18⟩, ⟨true, 187669323777381622, 18⟩, ⟨false, 158629650112549365, 18⟩⟩,
  ⟨⟨false, 2846148069787908, 16⟩, ⟨false, 8644080972654204, 16⟩, ⟨true, 4144792552473539, 16⟩,
   ⟨true, 414479255247353850, 18⟩, ⟨false, 910058760174088377, 18⟩, ⟨false, 1252716453253507838, 18⟩, ⟨false, 5891865957979238535, 18⟩⟩,
  ⟨⟨true, 7428567301586791, 16⟩, ⟨false, 3593941678278027, 16⟩, ⟨true, 5648005936517033, 16⟩,
   ⟨true, 564800593651703320, 18⟩, ⟨false, 825227416783206214, 18⟩, ⟨false, 2690988744120037492, 18⟩, ⟨false, 2711123289609793325, 18⟩⟩,
  ⟨⟨true, 8112534709140971, 16⟩, ⟨true, 3448953237639382, 16⟩, ⟨true, 4721387736413930, 16⟩,
   ⟨true, 472138773641393006, 18⟩, ⟨false, 881524235868986983, 18⟩, ⟨true, 2739604450678486295, 18⟩, ⟨false, 3294508837434268316, 18⟩⟩,
  ⟨⟨true, 2199307791404607, 16⟩, ⟨true, 6583691780274996, 16⟩, ⟨true, 7198475378926182, 16⟩,
   ⟨true, 719847537892618239, 18⟩, ⟨false, 694132208005028062, 18⟩, ⟨true, 1893195233972397139, 18⟩, ⟨false, 3804819692245439833, 18⟩⟩,
  ⟨⟨false, 2139234834501420, 16⟩, ⟨true, 1478171829550704, 16⟩, ⟨true, 9656017935214205, 16⟩,
   ⟨true, 965601793521420504, 18⟩, ⟨false, 260025337896551800, 18⟩, ⟨true, 604647643711872080, 18⟩, ⟨false, 3664438879055192436, 18⟩⟩,
  ⟨⟨true, 1092625278784796, 16⟩, ⟨false, 4811951572873210, 16⟩, ⟨true, 8697775121287253, 16⟩,
   ⟨true, 869777512128725339, 18⟩, ⟨false, 493444099564646799, 18⟩, ⟨false, 1794075294689396615, 18⟩, ⟨false, 2361378999196363184, 18⟩⟩]

/-- /repo/util/util.go:47-69, 95-117, 143-212. -/
def source64 : List FaceSource := [
  ⟨⟨false, 2199307791404606, 16⟩, ⟨false, 6583691780274996, 16⟩, ⟨false, 7198475378926182, 16⟩,
   ⟨false, 719847537892618239, 18⟩, ⟨false, 694132208005028062, 18⟩, ⟨false, 1248397419617396099, 18⟩, ⟨false, 5619958268523939882, 18⟩⟩,
  ⟨⟨true, 2139234834501421, 16⟩, ⟨false, 1478171829550703, 16⟩, ⟨false, 9656017935214205, 16⟩,
   ⟨false, 965601793521420504, 18⟩, ⟨false, 260025337896551800, 18⟩, ⟨false, 2536945009877921159, 18⟩, ⟨false, 5760339081714187279, 18⟩⟩,
  ⟨⟨false, 1092625278784797, 16⟩, ⟨true, 4811951572873210, 16⟩, ⟨false, 8697775121287253, 16⟩,
   ⟨false, 869777512128725339, 18⟩, ⟨false, 493444099564646799, 18⟩, ⟨true, 1347517358900396623, 18⟩, ⟨false, 780213654393430055, 18⟩⟩,
  ⟨⟨false, 7428567301586791, 16⟩, ⟨true, 3593941678278028, 16⟩, ⟨false, 5648005936517033, 16⟩,
   ⟨false, 564800593651703320, 18⟩, ⟨false, 825227416783206214, 18⟩, ⟨true, 450603909469755746, 18⟩, ⟨false, 430469363979999913, 18⟩⟩,
  ⟨⟨false, 8112534709140969, 16⟩, ⟨false, 3448953237639384, 16⟩, ⟨false, 4721387736413930, 16⟩,
   ⟨false, 472138773641393006, 18⟩, ⟨false, 881524235868986983, 18⟩, ⟨false, 401988202911306943, 18⟩, ⟨false, 6130269123335111400, 18⟩⟩,
  ⟨⟨true, 1055498149613921, 16⟩, ⟨false, 9794457296411413, 16⟩, ⟨false, 1718874610009365, 16⟩,
   ⟨false, 171887461000936548, 18⟩, ⟨false, 985116592465405394, 18⟩, ⟨false, 1678146885280433686, 18⟩, ⟨false, 2692877706530642877, 18⟩⟩,
  ⟨⟨true, 8075407579970092, 16⟩, ⟨false, 1533552485898818, 16⟩, ⟨false, 5695261994882688, 16⟩,
   ⟨false, 569526199488268769, 18⟩, ⟨false, 821973179669780118, 18⟩, ⟨false, 2953923329812411617, 18⟩, ⟨false, 2982963003477243874, 18⟩⟩,
  ⟨⟨true, 2846148069787907, 16⟩, ⟨true, 8644080972654206, 16⟩, ⟨false, 4144792552473539, 16⟩,
   ⟨false, 414479255247353850, 18⟩, ⟨false, 910058760174088377, 18⟩, ⟨true, 1888876200336285401, 18⟩, ⟨false, 3532912002790141181, 18⟩⟩,
  ⟨⟨false, 7405621473854482, 16⟩, ⟨true, 6673299564565524, 16⟩, ⟨true, 789837646326737, 16⟩,
   ⟨true, 78983764632673703, 18⟩, ⟨false, 996875902469535280, 18⟩, ⟨true, 733429513380867741, 18⟩, ⟨false, 3494305004259568154, 18⟩⟩,
  ⟨⟨false, 8512303986474293, 16⟩, ⟨false, 4722343788582681, 16⟩, ⟨true, 2289137388687808, 16⟩,
   ⟨true, 228913738868780775, 18⟩, ⟨false, 973446711513843321, 18⟩, ⟨false, 506495587332349035, 18⟩, ⟨false, 3003214169499538391, 18⟩⟩,
  ⟨⟨true, 7405621473854481, 16⟩, ⟨false, 6673299564565524, 16⟩, ⟨false, 789837646326737, 16⟩,
   ⟨false, 78983764632673703, 18⟩, ⟨false, 996875902469535280, 18⟩, ⟨false, 2408163140208925497, 18⟩, ⟨false, 5930472956509811562, 18⟩⟩,
  ⟨⟨true, 8512303986474292, 16⟩, ⟨true, 4722343788582682, 16⟩, ⟨false, 2289137388687808, 16⟩,
   ⟨false, 228913738868780775, 18⟩, ⟨false, 973446711513843321, 18⟩, ⟨true, 2635097066257444203, 18⟩, ⟨false, 138378484090254847, 18⟩⟩,
  ⟨⟨false, 1055498149613919, 16⟩, ⟨true, 9794457296411413, 16⟩, ⟨true, 1718874610009365, 16⟩,
   ⟨true, 171887461000936548, 18⟩, ⟨false, 985116592465405394, 18⟩, ⟨true, 1463445768309359553, 18⟩, ⟨false, 448714947059150361, 18⟩⟩,
  ⟨⟨false, 8075407579970092, 16⟩, ⟨true, 1533552485898819, 16⟩, ⟨true, 5695261994882688, 16⟩,
   ⟨true, 569526199488268769, 18⟩, ⟨false, 821973179669780118, 18⟩, ⟨true, 187669323777381622, 18⟩, ⟨false, 158629650112549365, 18⟩⟩,
  ⟨⟨false, 2846148069787908, 16⟩, ⟨false, 8644080972654204, 16⟩, ⟨true, 4144792552473539, 16⟩,
   ⟨true, 414479255247353850, 18⟩, ⟨false, 910058760174088377, 18⟩, ⟨false, 1252716453253507838, 18⟩, ⟨false, 5891865957979238535, 18⟩⟩,
  ⟨⟨true, 7428567301586791, 16⟩, ⟨false, 3593941678278027, 16⟩, ⟨true, 5648005936517033, 16⟩,
   ⟨true, 564800593651703320, 18⟩, ⟨false, 825227416783206214, 18⟩, ⟨false, 2690988744120037492, 18⟩, ⟨false, 2711123289609793325, 18⟩⟩,
  ⟨⟨true, 8112534709140971, 16⟩, ⟨true, 3448953237639382, 16⟩, ⟨true, 4721387736413930, 16⟩,
   ⟨true, 472138773641393006, 18⟩, ⟨false, 881524235868986983, 18⟩, ⟨true, 2739604450678486295, 18⟩, ⟨false, 3294508837434268316, 18⟩⟩,
  ⟨⟨true, 2199307791404607, 16⟩, ⟨true, 6583691780274996, 16⟩, ⟨true, 7198475378926182, 16⟩,
   ⟨true, 719847537892618239, 18⟩, ⟨false, 694132208005028062, 18⟩, ⟨true, 1893195233972397139, 18⟩, ⟨false, 3804819692245439833, 18⟩⟩,
  ⟨⟨false, 2139234834501420, 16⟩, ⟨true, 1478171829550704, 16⟩, ⟨true, 9656017935214205, 16⟩,
   ⟨true, 965601793521420504, 18⟩, ⟨false, 260025337896551800, 18⟩, ⟨true, 604647643711872080, 18⟩, ⟨false, 3664438879055192436, 18⟩⟩,
  ⟨⟨true, 1092625278784796, 16⟩, ⟨false, 4811951572873210, 16⟩, ⟨true, 8697775121287253, 16⟩,
   ⟨true, 869777512128725339, 18⟩, ⟨false, 493444099564646799, 18⟩, ⟨false, 1794075294689396615, 18⟩, ⟨false, 2361378999196363184, 18⟩⟩]

/-- Longitude and azimuth of the faces as bit patterns (arguments of `math.Sin` and `math.Cos`, /repo/loc2index32/loc2index32.go:87-92). -/
def angles32 : List (ℕ × ℕ) := [
  (0x3f9fcb7d, 0x40b3d6b3),
  (0x40225d4f, 0x40b854b3),
  (0xbfac7b73, 0x3f47bc15),
  (0xbee6b58e, 0x3edc667b),
  (0x3ecdd166, 0x40c42b2a),
  (0x3fd6cd84, 0x402c581c),
  (0x403d0d14, 0x403ee8de),
  (0xbff1c6b2, 0x40621b3b),
  (0xbf3bc209, 0x405fa2b1),
  (0x3f01a9b2, 0x404034a9),
  (0x401a1f58, 0x40bdc66f),
  (0xc028a56e, 0x3e0db317),
  (0xbfbb5231, 0x3ee5bdf7),
  (0xbe402c63, 0x3e226fd0),
  (0x3fa05903, 0x40bc8a2a),
  (0x402c3929, 0x402d830b),
  (0xc02f55ae, 0x4052d93c),
  (0xbff25439, 0x4073822a),
  (0xbf1aca30, 0x406a862b),
  (0x3fe5a442, 0x401720d5)]

/-- `Ap7rot_32` as a bit pattern. -/
def ap7rot32 : ℕ := 0x3eaabcff

/-- Longitude and azimuth of the faces as bit patterns (arguments of `math.Sin` and `math.Cos`, /repo/loc2index64/loc2index64.go:87-92). -/
def angles64 : List (ℕ × ℕ) := [
  (0x3ff3f96f929aae1a, 0x40167ad65720c7ca),
  (0x40044ba9d3496897, 0x40170a965407551a),
  (0xbff58f6e5cb44fdd, 0x3fe8f782a03065d1),
  (0xbfdcd6b1c7a7d483, 0x3fdb8ccf600e5658),
  (0x3fd9ba2cba3870a5, 0x4018856544e19c90),
  (0x3ffad9b08c629ea0, 0x40058b03778d69ac),
  (0x4007a1a28e037c60, 0x4007dd1bb508e6ce),
  (0xbffe38d6402a3185, 0x400c43675e3d0940),
  (0xbfe778412bbc8b70, 0x400bf4562e9c5a15),
  (0x3fe035363be524df, 0x4008069526871315),
  (0x400343eb09550a3c, 0x4017b8cde718169a),
  (0xc00514adc54ae3e0, 0x3fc1b662dbd1a02f),
  (0xbff76a461c25bb91, 0x3fdcb7bee5b61b66),
  (0xbfc8058c640b0b87, 0x3fc44df9f3b464ac),
  (0x3ff40b20685e28ab, 0x401791454f47bf04),
  (0x400587251b4f3288, 0x4005b0616842624d),
  (0xc005eab5bcfd1f04, 0x400a5b2773094e28),
  (0xbffe4a8715edac17, 0x400e70454e8af7b4),
  (0xbfe3594603eb1207, 0x400d50c554bddd15),
  (0x3ffcb4884bd40a53, 0x4002e41aac3813a4)]

/-- `Ap7rot_64` as a bit pattern. -/
def ap7rot64 : ℕ := 0x3fd5579fdc3a8f41

/-- `Sin60_32` and `Sin60_64`, /repo/util/util.go:35-42. -/
def sin60Source : Decimal := ⟨false, 8660254037844386467637231707529361834714, 40⟩

/-- `Sqrt7_32` and `Sqrt7_64`, /repo/util/util.go:35-42. -/
def sqrt7Source : Decimal := ⟨false, 26457513110645905905016157536392604257102, 40⟩

/-- `ResConst_32` and `ResConst_64`, /repo/util/util.go:35-42. -/
def resConstSource : Decimal := ⟨false, 38196601125010500003, 20⟩

/-- `Ap7rot_32` and `Ap7rot_64`, /repo/util/util.go:35-42. -/
def ap7rotSource : Decimal := ⟨false, 333473172251832115336090755351601070065900389, 45⟩

end ZkLoc
