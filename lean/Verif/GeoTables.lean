import Mathlib.Data.Nat.Notation

/-!
# Constant tables of /repo/util/util.go used by /repo/loc2index32 and /repo/loc2index64

Bit patterns. Decimals of the source are rounded to nearest-even, as the Go compiler does (checked by the theorems `C44_*` in `Verif/Props/Geo.lean`). The entries
`sinLng` … `cosAzRot` are computed by `math.Sin` and `math.Cos` of Go at compile time of the circuit
(/repo/loc2index32/loc2index32.go:87-92); they were obtained by following that function's algorithm (amd64, no fused operations) and are
part of the trusted translation. Face `i` is entry `i`.
-/

namespace ZkLoc

/-- The constants of one face: centre point (`FaceCenterPoint_32`/`_64`, /repo/util/util.go:95-141), sine and cosine of the centre's latitude
(lines 143-189, 214-260), and sine and cosine of its longitude, azimuth and rotated azimuth. -/
structure Face where
  px : ℕ
  py : ℕ
  pz : ℕ
  sinLat : ℕ
  cosLat : ℕ
  sinLng : ℕ
  cosLng : ℕ
  sinAz : ℕ
  cosAz : ℕ
  sinAzRot : ℕ
  cosAzRot : ℕ
deriving DecidableEq, Repr

/-- The remaining constants of /repo/loc2index32/loc2index32.go and loc2index64.go; `powers` are the successive squares of `Sqrt7_32`/`Sqrt7_64`
formed at compile time in lines 15-27 (`power *= power` in float32/float64). -/
structure GeoConsts where
  half : ℕ
  one : ℕ
  two : ℕ
  four : ℕ
  five : ℕ
  third : ℕ
  twoThirds : ℕ
  sin60 : ℕ
  resConst : ℕ
  pi : ℕ
  halfPi : ℕ
  twoPi : ℕ
  powers : List ℕ
  faces : List Face
deriving DecidableEq, Repr

/-- Faces in single precision. -/
def faces32 : List Face := [
  ⟨0x3e613589, 0x3f288ae2, 0x3f3847ee, 0x3f3847ee, 0x3f31b2a6, 0x3f72cf76,
   0x3ea23936, 0xbf1d9c15, 0x3f49bb00, 0xbf56f57f, 0x3f0b070a⟩,
  ⟨0xbe5b0ec2, 0x3e175d63, 0x3f7731ae, 0x3f7731ae, 0x3e85220b, 0x3f118764,
   0xbf529ca2, 0xbeffaa8a, 0x3f5dcc7d, 0xbf416440, 0x3f27bca9⟩,
  ⟨0x3ddfc508, 0xbef65f36, 0x3f5ea9bd, 0x3f5ea9bd, 0x3efca4b4, 0xbf79a52d,
   0x3e62be1e, 0x3f341413, 0x3f35f495, 0x3edd32cd, 0x3f66e04e⟩,
  ⟨0x3f3e2bdc, 0xbeb80283, 0x3f1096c6, 0x3f1096c6, 0x3f53421b, 0xbedefb11,
   0x3f66727a, 0x3ed5a801, 0x3f68a526, 0x3dc6563c, 0x3f7ecbf4⟩,
  ⟨0x3f4fae4f, 0x3eb0961f, 0x3ef1bc2c, 0x3ef1bc2c, 0x3f61ab93, 0x3ec851c4,
   0x3f6b97cb, 0xbe1bfa09, 0x3f7d0344, 0xbeef53eb, 0x3f624f8d⟩,
  ⟨0xbdd82a80, 0x3f7abcf5, 0x3e300344, 0x3e300344, 0x3f7c309a, 0x3f7e86bd,
   0xbddb6e8c, 0x3ede1c15, 0xbf66a849, 0x3f346ff4, 0xbf359978⟩,
  ⟨0xbf4ebafe, 0x3e1d0929, 0x3f11cc78, 0x3f11cc78, 0x3f526cd6, 0x3e3f0c24,
   0xbf7b814d, 0x3e21c19c, 0xbf7cc92d, 0x3ef1e8ec, 0xbf619f95⟩,
  ⟨0xbe91b908, 0xbf5d49d9, 0x3ed436a0, 0x3ed436a0, 0x3f68f99c, 0xbf732890,
   0xbea01fe5, 0xbec347f5, 0xbf6ca5ea, 0xbd6cce4d, 0xbf7f9262⟩,
  ⟨0x3f3d957b, 0xbf2ad623, 0xbda1c23d, 0xbda1c23d, 0x3f7f3342, 0xbf2b5f31,
   0x3f3e2d95, 0xbeb0de15, 0xbf703d8e, 0xbc9d98c2, 0xbf7ff3df⟩,
  ⟨0x3f59ea3c, 0x3ef1c8b4, 0xbe6a685d, 0xbe6a685d, 0x3f7933ce, 0x3ef86119,
   0x3f5fdbf3, 0x3e0d3f71, 0xbf7d8d8a, 0x3ee8b900, 0xbf6406c3⟩,
  ⟨0xbf3d957b, 0x3f2ad623, 0x3da1c23d, 0x3da1c23d, 0x3f7f3342, 0x3f2b5f33,
   0xbf3e2d94, 0xbeb0de1c, 0x3f703d8d, 0xbf223301, 0x3f460f22⟩,
  ⟨0xbf59ea3c, 0xbef1c8b4, 0x3e6a685d, 0x3e6a685d, 0x3f7933ce, 0xbef8611a,
   0xbf5fdbf3, 0x3e0d3f6e, 0x3f7d8d8a, 0xbe468316, 0x3f7b24bd⟩,
  ⟨0x3dd82a80, 0xbf7abcf5, 0xbe300344, 0xbe300344, 0x3f7c309a, 0xbf7e86bd,
   0x3ddb6e90, 0x3ede1c17, 0x3f66a849, 0x3deb7e3a, 0x3f7e4d4d⟩,
  ⟨0x3f4ebafe, 0xbe1d0929, 0xbf11cc78, 0xbf11cc78, 0x3f526cd6, 0xbe3f0c1d,
   0x3f7b814d, 0x3e21c1a2, 0x3f7cc92d, 0xbe322102, 0x3f7c18d3⟩,
  ⟨0x3e91b908, 0x3f5d49d9, 0xbed436a0, 0xbed436a0, 0x3f68f99c, 0x3f732890,
   0x3ea01fe6, 0xbec347fc, 0x3f6ca5e9, 0xbf29b914, 0x3f3fa6aa⟩,
  ⟨0xbf3e2bdc, 0x3eb80283, 0xbf1096c6, 0xbf1096c6, 0x3f53421b, 0x3edefb10,
   0xbf66727a, 0x3ed5a803, 0xbf68a526, 0x3f311817, 0xbf38dc7b⟩,
  ⟨0xbf4fae4f, 0xbeb0961f, 0xbef1bc2c, 0xbef1bc2c, 0x3f61ab93, 0xbec851c3,
   0xbf6b97cb, 0xbe1bfa0b, 0xbf7d0344, 0x3e37e326, 0xbf7bd6a3⟩,
  ⟨0xbe613589, 0xbf288ae2, 0xbf3847ee, 0xbf3847ee, 0x3f31b2a6, 0xbf72cf75,
   0xbea23939, 0xbf1d9c16, 0xbf49bb00, 0xbea5ca6f, 0xbf72350f⟩,
  ⟨0x3e5b0ec2, 0xbe175d63, 0xbf7731ae, 0xbf7731ae, 0x3e85220b, 0xbf118765,
   0x3f529ca1, 0xbeffaa91, 0xbf5dcc7b, 0xbe40c2d8, 0xbf7b6c60⟩,
  ⟨0xbddfc508, 0x3ef65f36, 0xbf5ea9bd, 0xbf5ea9bd, 0x3efca4b4, 0x3f79a52d,
   0xbe62be1c, 0x3f341414, 0xbf35f494, 0x3f65b78d, 0xbee1f96e⟩]

/-- Constants in single precision, /repo/util/util.go:35-42 and the literals of /repo/loc2index32/loc2index32.go. -/
def geo32 : GeoConsts where
  half := 0x3f000000
  one := 0x3f800000
  two := 0x40000000
  four := 0x40800000
  five := 0x40a00000
  third := 0x3eaaaaab
  twoThirds := 0x3f2aaaab
  sin60 := 0x3f5db3d7
  resConst := 0x3ec3910d
  pi := 0x40490fdb
  halfPi := 0x3fc90fdb
  twoPi := 0x40c90fdb
  powers := [0x402953fd, 0x40dfffff, 0x4243fffe, 0x45160ffd]
  faces := faces32

/-- Faces in double precision. -/
def faces64 : List Face := [
  ⟨0x3fcc26b117e562ca, 0x3fe5115c3d0a5206, 0x3fe708fdb42b5b79, 0x3fe708fdb42b5b79, 0x3fe63654bf8f6b70, 0x3fee59eeaf44a556,
   0x3fd44726f18d7d32, 0xbfe3b382df3df2b2, 0x3fe9375fd860857f, 0xbfeadeaffadfe8f6, 0x3fe160e0fec0eff7⟩,
  ⟨0xbfcb61d83ea1e393, 0x3fc2ebac674a1898, 0x3feee635bb844530, 0x3feee635bb844530, 0x3fd0a44150996918, 0x3fe230ecab0c5881,
   0xbfea5394187edb29, 0xbfdff551dceecd94, 0x3febb98f7fcec71d, 0xbfe82c8845189227, 0x3fe4f794e1d1a7c2⟩,
  ⟨0x3fbbf8a107ea967a, 0xbfdecbe6c5e2ba48, 0x3febd537a62c73a9, 0x3febd537a62c73a9, 0x3fdf94968f823265, 0xbfef34a5a22b696c,
   0x3fcc57c3e2855e3a, 0x3fe6828257c64479, 0x3fe6be92993fe65b, 0x3fdba659a1239db4, 0x3fecdc09b35f6589⟩,
  ⟨0x3fe7c57b7a34a409, 0xbfd70050654c6319, 0x3fe212d8b1cfdabc, 0x3fe212d8b1cfdabc, 0x3fea684353db15f9, 0xbfdbdf6229431d9a,
   0x3fecce4f37c1865a, 0x3fdab5001f2231c4, 0x3fed14a4cadecd4c, 0x3fb8cac78ab2804a, 0x3fefd97e748bf0a7⟩,
  ⟨0x3fe9f5c9d6caf609, 0x3fd612c3d607012e, 0x3fde37858bfda732, 0x3fde37858bfda732, 0x3fec3572507609be, 0x3fd90a3885c27fe3,
   0x3fed72f962688b53, 0xbfc37f4095058d88, 0x3fefa068830dbfef, 0xbfddea7d09621ab9, 0x3fec49f1a95e7af5⟩,
  ⟨0xbfbb05500b5ba7e4, 0x3fef579e92207f77, 0x3fc6006887cbb632, 0x3fc6006887cbb634, 0x3fef86133b6c5919, 0x3fefd0d7a940f38a,
   0xbfbb6dd240ce8a29, 0x3fdbc382da30e428, 0xbfecd50917d0acf4, 0x3fe68dfe8f80e924, 0xbfe6b32ef5b11728⟩,
  ⟨0xbfe9d75fb7391835, 0x3fc3a12510ae86ec, 0x3fe2398f02208d9c, 0x3fe2398f02208d9c, 0x3fea4d9ab29bdde7, 0x3fc7e183a8fa8a88,
   0xbfef7029a710bead, 0x3fc438343ad43c85, 0xbfef992594dbae0f, 0x3fde3d1dbdec981d, 0xbfec33f29937c491⟩,
  ⟨0xbfd2372105fb99be, 0xbfeba93b2b84e1d7, 0x3fda86d3ff8a19bf, 0x3fda86d3ff8a19be, 0x3fed1f338c8c5a40, 0xbfee6511fb0eeab2,
   0xbfd403fc99649fc1, 0xbfd868fe9e332244, 0xbfed94bd433fe64e, 0xbfad99c94e1d1803, 0xbfeff24c4109d88e⟩,
  ⟨0x3fe7b2af6375a20e, 0xbfe55ac45a53e765, 0xbfb43847ae0325c4, 0xbfb43847ae0325c4, 0x3fefe6684ae8de54, 0xbfe56be6348d07be,
   0x3fe7c5b28a5b9f7e, 0xbfd61bc30b239ced, 0xbfee07b1a4e1e4c3, 0xbf93b31fc24a9f17, 0xbfeffe7be2c218ac⟩,
  ⟨0x3feb3d478871a7f3, 0x3fde39168b4f8f87, 0xbfcd4d0b9f05f3a2, 0xbfcd4d0b9f05f3a1, 0x3fef2679b7cb38f7, 0x3fdf0c232272ce31,
   0x3febfb7e65d9a15f, 0x3fc1a7edc7313a37, 0xbfefb1b1408998df, 0x3fdd171fc84edda8, 0xbfec80d85d3b357e⟩,
  ⟨0xbfe7b2af6375a20d, 0x3fe55ac45a53e765, 0x3fb43847ae0325c4, 0x3fb43847ae0325c4, 0x3fefe6684ae8de54, 0x3fe56be6348d07be,
   0xbfe7c5b28a5b9f7d, 0xbfd61bc30b239ceb, 0x3fee07b1a4e1e4c3, 0xbfe4465fea85298c, 0x3fe8c1e458dc7532⟩,
  ⟨0xbfeb3d478871a7f2, 0xbfde39168b4f8f89, 0x3fcd4d0b9f05f3a2, 0x3fcd4d0b9f05f3a1, 0x3fef2679b7cb38f7, 0xbfdf0c232272ce34,
   0xbfebfb7e65d9a15e, 0x3fc1a7edc7313a32, 0x3fefb1b1408998df, 0xbfc8d062befbb7a4, 0x3fef649798858d5f⟩,
  ⟨0x3fbb05500b5ba7d6, 0xbfef579e92207f77, 0xbfc6006887cbb632, 0xbfc6006887cbb634, 0x3fef86133b6c5919, 0xbfefd0d7a940f38b,
   0x3fbb6dd240ce8a21, 0x3fdbc382da30e42c, 0x3fecd50917d0acf3, 0x3fbd6fc76f7f3154, 0x3fefc9a99de8d2af⟩,
  ⟨0x3fe9d75fb7391835, 0xbfc3a12510ae86ef, 0xbfe2398f02208d9c, 0xbfe2398f02208d9c, 0x3fea4d9ab29bdde7, 0xbfc7e183a8fa8a8b,
   0x3fef7029a710bead, 0x3fc438343ad43c8d, 0x3fef992594dbae0f, 0xbfc6442050a3b907, 0x3fef831a5716953c⟩,
  ⟨0x3fd2372105fb99c0, 0x3feba93b2b84e1d6, 0xbfda86d3ff8a19bf, 0xbfda86d3ff8a19be, 0x3fed1f338c8c5a40, 0x3fee6511fb0eeab2,
   0x3fd403fc99649fc3, 0xbfd868fe9e33224a, 0x3fed94bd433fe64d, 0xbfe537221b786373, 0x3fe7f4d590c6fb00⟩,
  ⟨0xbfe7c57b7a34a409, 0x3fd70050654c6317, 0xbfe212d8b1cfdabc, 0xbfe212d8b1cfdabc, 0x3fea684353db15f9, 0x3fdbdf6229431d99,
   0xbfecce4f37c1865a, 0x3fdab5001f2231c5, 0xbfed14a4cadecd4b, 0x3fe62302c1e83789, 0xbfe71b8f6bb1eb96⟩,
  ⟨0xbfe9f5c9d6caf60a, 0xbfd612c3d607012b, 0xbfde37858bfda732, 0xbfde37858bfda732, 0x3fec3572507609be, 0xbfd90a3885c27fe0,
   0xbfed72f962688b54, 0xbfc37f4095058d7b, 0xbfefa068830dbfef, 0x3fc6fc658c4cf4dc, 0xbfef7ad45350085e⟩,
  ⟨0xbfcc26b117e562cd, 0xbfe5115c3d0a5206, 0xbfe708fdb42b5b79, 0xbfe708fdb42b5b79, 0x3fe63654bf8f6b70, 0xbfee59eeaf44a556,
   0xbfd44726f18d7d34, 0xbfe3b382df3df2af, 0xbfe9375fd8608581, 0xbfd4b94e46081d0c, 0xbfee46a1cc0f1c7f⟩,
  ⟨0x3fcb61d83ea1e390, 0xbfc2ebac674a189c, 0xbfeee635bb844530, 0xbfeee635bb844530, 0x3fd0a44150996918, 0xbfe230ecab0c5883,
   0x3fea5394187edb28, 0xbfdff551dceecd95, 0xbfebb98f7fcec71c, 0xbfc8185a5be3dc03, 0xbfef6d8c0d990542⟩,
  ⟨0xbfbbf8a107ea9673, 0x3fdecbe6c5e2ba48, 0xbfebd537a62c73a9, 0xbfebd537a62c73a9, 0x3fdf94968f823265, 0x3fef34a5a22b696c,
   0xbfcc57c3e2855e36, 0x3fe6828257c64479, 0xbfe6be92993fe65b, 0x3fecb6f190d81c26, 0xbfdc3f2e24cd3636⟩]

/-- Constants in double precision, /repo/util/util.go:35-42 and the literals of /repo/loc2index64/loc2index64.go. -/
def geo64 : GeoConsts where
  half := 0x3fe0000000000000
  one := 0x3ff0000000000000
  two := 0x4000000000000000
  four := 0x4010000000000000
  five := 0x4014000000000000
  third := 0x3fd5555555555555
  twoThirds := 0x3fe5555555555555
  sin60 := 0x3febb67ae8584caa
  resConst := 0x3fd8722191a02d5e
  pi := 0x400921fb54442d18
  halfPi := 0x3ff921fb54442d18
  twoPi := 0x401921fb54442d18
  powers := [0x40052a7fa9d2f8ea, 0x401c000000000001, 0x4048800000000002, 0x40a2c20000000003]
  faces := faces64

end ZkLoc
