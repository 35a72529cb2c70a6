import Verif.Bench

/-!
# The tables of locations of the repository
-/

namespace ZkLoc.Vectors
open ZkLoc.Bench

/-- The rows of /repo/data/f64/loc2index64.txt:1-144 (bit patterns of latitude and longitude, resolution, cell), read by `TestLoc2Index64`. -/
def locRows64 : List (ℕ × ℕ × ℕ × ℕ × ℕ × ℕ) := [
  (0x3FE623F7DA85E88F, 0x3FE6B53378DD4F86, 0, 0x1, 0x0, 0x1),
  (0x3FE623FDA1ECC075, 0x3FE58BD3A0FF04AD, 0, 0x1, 0x0, 0x1),
  (0x3FE62401BB93B936, 0x3FE4B8D61084FE92, 0, 0x1, 0x0, 0x1),
  (0x3FE62404E9C02555, 0x3FE4152DE39D1271, 0, 0x1, 0x0, 0x1),
  (0x3FE6240782FA911B, 0x3FE38F7638A6B3B8, 0, 0x1, 0x0, 0x1),
  (0x3FE62409B56BD486, 0x3FE31E67C22FCD6E, 0, 0x1, 0x0, 0x1),
  (0x3FE6240B9CA189DC, 0x3FE2BC78A82CAD9E, 0, 0x1, 0x0, 0x1),
  (0x3FE6240D4A616901, 0x3FE2661660C868DE, 0, 0x1, 0x0, 0x1),
  (0x3FE6240ECACDF5FC, 0x3FE218D07B44C17C, 0, 0x1, 0x0, 0x1),
  (0x3FE773A3C276E982, 0x3FE28D0A40137B8F, 1, 0x2, 0x0, 0x2),
  (0x3FE7A8F49094CDD6, 0x3FE22CA7F61CEE03, 1, 0x2, 0x0, 0x2),
  (0x3FE7CEC88BCF6658, 0x3FE1E84546585445, 1, 0x2, 0x0, 0x2),
  (0x3FE7EC2006907702, 0x3FE1B33A08A07285, 1, 0x2, 0x0, 0x2),
  (0x3FE8041959ED4AAB, 0x3FE187E2FC61C6B9, 1, 0x2, 0x0, 0x2),
  (0x3FE8185E62DBB121, 0x3FE1633E41AFC8BF, 1, 0x2, 0x0, 0x2),
  (0x3FE829ED5527E32D, 0x3FE143804C9D2CFA, 1, 0x2, 0x0, 0x2),
  (0x3FE8396A280B2EFE, 0x3FE12780B26B392E, 1, 0x2, 0x0, 0x2),
  (0x3FE84744CFE8F3D8, 0x3FE10E750EE54B3B, 1, 0x2, 0x0, 0x2),
  (0x3FE74811C7C8D634, 0x3FE3079B620F4198, 2, 0x6, 0x0, 0x4),
  (0x3FE763E5ED0CB4E8, 0x3FE2EEEB8A483B7C, 2, 0x6, 0x0, 0x4),
  (0x3FE777A496733FBA, 0x3FE2DD678A4FE058, 2, 0x6, 0x0, 0x4),
  (0x3FE786F549B566C3, 0x3FE2CFD17AD1BCE9, 2, 0x6, 0x0, 0x4),
  (0x3FE79378BBB71E6F, 0x3FE2C4B7B288DA3B, 2, 0x6, 0x0, 0x4),
  (0x3FE79E0D352C21A7, 0x3FE2BB550130A7FA, 2, 0x6, 0x0, 0x4),
  (0x3FE7A737651DA941, 0x3FE2B333B2907F17, 2, 0x6, 0x0, 0x4),
  (0x3FE7AF4CE0FAFD24, 0x3FE2AC07DAC1D41F, 2, 0x6, 0x0, 0x4),
  (0x3FE7B688185FD049, 0x3FE2A59DA3125BA9, 2, 0x6, 0x0, 0x4),
  (0x3FE6AAEA0F0086E5, 0x3FE29A544A3B8AE5, 3, 0xD, 0x0, 0xD),
  (0x3FE6B2BC9BAB5B44, 0x3FE28D0C0E70D698, 3, 0xD, 0x0, 0xD),
  (0x3FE6B84970867D9E, 0x3FE2839F8D63CAED, 3, 0xD, 0x0, 0xD),
  (0x3FE6BC9785A5B28D, 0x3FE27C5044CC3124, 3, 0xD, 0x0, 0xD),
  (0x3FE6C01BFD3151FC, 0x3FE27657519916A0, 3, 0xD, 0x0, 0xD),
  (0x3FE6C31552B0F2F5, 0x3FE2714A9C24E282, 3, 0xD, 0x0, 0xD),
  (0x3FE6C5A8D20C7456, 0x3FE26CEAD08C0AF6, 3, 0xD, 0x0, 0xD),
  (0x3FE6C7EE89DC265A, 0x3FE2690F15CE6253, 3, 0xD, 0x0, 0xD),
  (0x3FE6C9F6E72BA946, 0x3FE2659B87F4712C, 3, 0xD, 0x0, 0xD),
  (0x3FE6C0B0A8DA6496, 0x3FE262EEAF121B05, 4, 0x27, 0x0, 0x19),
  (0x3FE6C4AD921021C4, 0x3FE25F67B509E14E, 4, 0x27, 0x0, 0x19),
  (0x3FE6C781EB1DD1D3, 0x3FE25CE708F77767, 4, 0x27, 0x0, 0x19),
  (0x3FE6C9B3C42AC585, 0x3FE25AF61751F870, 4, 0x27, 0x0, 0x19),
  (0x3FE6CB7ED4538F00, 0x3FE259600EEF3DB0, 4, 0x27, 0x0, 0x19),
  (0x3FE6CD02F63490D5, 0x3FE25808C3356C4E, 4, 0x27, 0x0, 0x19),
  (0x3FE6CE532D613F0F, 0x3FE256DF62DCD3C9, 4, 0x27, 0x0, 0x19),
  (0x3FE6CF7BBD894C2D, 0x3FE255D914E703F9, 4, 0x27, 0x0, 0x19),
  (0x3FE6D085066E32C2, 0x3FE254EE713754D2, 4, 0x27, 0x0, 0x19),
  (0x3FE6BBC71EBFF475, 0x3FE265B5D116FE55, 5, 0x5C, 0x0, 0x59),
  (0x3FE6BCE46AEBE5AF, 0x3FE263CED37DFB1D, 5, 0x5C, 0x0, 0x59),
  (0x3FE6BDAED6E8F190, 0x3FE262754D013E07, 5, 0x5C, 0x0, 0x59),
  (0x3FE6BE4BD99D9E3D, 0x3FE261694A5FCBE8, 5, 0x5C, 0x0, 0x59),
  (0x3FE6BECC2314E2CA, 0x3FE2608E4F683ACF, 5, 0x5C, 0x0, 0x59),
  (0x3FE6BF389A2535C4, 0x3FE25FD52A39D117, 5, 0x5C, 0x0, 0x59),
  (0x3FE6BF968F11EEAB, 0x3FE25F34C8EB7DB9, 5, 0x5C, 0x0, 0x59),
  (0x3FE6BFE96F40D405, 0x3FE25EA751CF3796, 5, 0x5C, 0x0, 0x59),
  (0x3FE6C03391C69B58, 0x3FE25E28C64A0B9A, 5, 0x5C, 0x0, 0x59),
  (0x3FE6B6D19E0E32FE, 0x3FE2726DECD19451, 6, 0x111, 0x0, 0xB0),
  (0x3FE6B763AE44E0DE, 0x3FE271ED6CB8B76B, 6, 0x111, 0x0, 0xB0),
  (0x3FE6B7CB507780B0, 0x3FE271924091B71B, 6, 0x111, 0x0, 0xB0),
  (0x3FE6B81BB2E30C9D, 0x3FE2714B888A6128, 6, 0x111, 0x0, 0xB0),
  (0x3FE6B85D60AE2E90, 0x3FE27111C078DA35, 6, 0x111, 0x0, 0xB0),
  (0x3FE6B894E88A4CC5, 0x3FE270E0E5F4D630, 6, 0x111, 0x0, 0xB0),
  (0x3FE6B8C502E0CE62, 0x3FE270B69451D9E5, 6, 0x111, 0x0, 0xB0),
  (0x3FE6B8EF70E4DC70, 0x3FE27091405FFD4E, 6, 0x111, 0x0, 0xB0),
  (0x3FE6B915654C5A4F, 0x3FE2706FDC4A83F2, 6, 0x111, 0x0, 0xB0),
  (0x3FE6B8A7FEF4DB23, 0x3FE2756DF480D007, 7, 0x284, 0x0, 0x272),
  (0x3FE6B8D0D39F0870, 0x3FE2752882FFDE16, 7, 0x284, 0x0, 0x272),
  (0x3FE6B8EDCBE7A6DF, 0x3FE274F73DA8EDFA, 7, 0x284, 0x0, 0x272),
  (0x3FE6B904446BE1B7, 0x3FE274D105FE5C6F, 7, 0x284, 0x0, 0x272),
  (0x3FE6B916A091D42C, 0x3FE274B1CC27FC0A, 7, 0x284, 0x0, 0x272),
  (0x3FE6B926267D047F, 0x3FE27497657684C1, 7, 0x284, 0x0, 0x272),
  (0x3FE6B93398DA729B, 0x3FE2748086D10BEE, 7, 0x284, 0x0, 0x272),
  (0x3FE6B93F753C0179, 0x3FE2746C5AA70A1A, 7, 0x284, 0x0, 0x272),
  (0x3FE6B94A115EAD73, 0x3FE2745A4F267A62, 7, 0x284, 0x0, 0x272),
  (0x3FE6BA5468C8C0FB, 0x3FE2742E8902A8ED, 8, 0x77B, 0x0, 0x4D1),
  (0x3FE6BA694686C4B0, 0x3FE2741C2E156279, 8, 0x77B, 0x0, 0x4D1),
  (0x3FE6BA78148D894E, 0x3FE2740F282451BA, 8, 0x77B, 0x0, 0x4D1),
  (0x3FE6BA83905365BB, 0x3FE274050E22C4AD, 8, 0x77B, 0x0, 0x4D1),
  (0x3FE6BA8CF24B8D03, 0x3FE273FCCD370B46, 8, 0x77B, 0x0, 0x4D1),
  (0x3FE6BA94E1219AD3, 0x3FE273F5D2C4145D, 8, 0x77B, 0x0, 0x4D1),
  (0x3FE6BA9BC05251A2, 0x3FE273EFC745FA86, 8, 0x77B, 0x0, 0x4D1),
  (0x3FE6BAA1D00990B9, 0x3FE273EA7249C4D1, 8, 0x77B, 0x0, 0x4D1),
  (0x3FE6BAA73C182E0E, 0x3FE273E5AD446D7A, 8, 0x77B, 0x0, 0x4D1),
  (0x3FE6B9CBA12B1037, 0x3FE2747B4058CE72, 9, 0x119F, 0x0, 0x111D),
  (0x3FE6B9D1764E4E6E, 0x3FE27471546FBD35, 9, 0x119F, 0x0, 0x111D),
  (0x3FE6B9D599B4340E, 0x3FE2746A4A576354, 9, 0x119F, 0x0, 0x111D),
  (0x3FE6B9D8CF6FD711, 0x3FE27464D4871D18, 9, 0x119F, 0x0, 0x111D),
  (0x3FE6B9DB6ED77246, 0x3FE274605E6E5218, 9, 0x119F, 0x0, 0x111D),
  (0x3FE6B9DDA6819536, 0x3FE2745C98CD43B7, 9, 0x119F, 0x0, 0x111D),
  (0x3FE6B9DF923D57E6, 0x3FE274595455F837, 9, 0x119F, 0x0, 0x111D),
  (0x3FE6B9E143FAB07E, 0x3FE27456728540DC, 9, 0x119F, 0x0, 0x111D),
  (0x3FE6B9E2C7F8FAE8, 0x3FE27453DE85B1FA, 9, 0x119F, 0x0, 0x111D),
  (0x3FE6B999BFA7562F, 0x3FE2748BE9A39716, 10, 0x345A, 0x0, 0x21B8),
  (0x3FE6B99CBACCE744, 0x3FE274894A72DB3E, 10, 0x345A, 0x0, 0x21B8),
  (0x3FE6B99ED842FA9A, 0x3FE274876E3B4486, 10, 0x345A, 0x0, 0x21B8),
  (0x3FE6B9A07C4068AC, 0x3FE27485FCD94AFF, 10, 0x345A, 0x0, 0x21B8),
  (0x3FE6B9A1D3688BAF, 0x3FE27484CF0A88AD, 10, 0x345A, 0x0, 0x21B8),
  (0x3FE6B9A2F58B1643, 0x3FE27483CFDDCD49, 10, 0x345A, 0x0, 0x21B8),
  (0x3FE6B9A3F0DE9F05, 0x3FE27482F2D2F1F5, 10, 0x345A, 0x0, 0x21B8),
  (0x3FE6B9A4CE8E1CC4, 0x3FE274822FD9CCD5, 10, 0x345A, 0x0, 0x21B8),
  (0x3FE6B9A594DC0D17, 0x3FE274818170F86F, 10, 0x345A, 0x0, 0x21B8),
  (0x3FE6B9A3587BEBB2, 0x3FE2749B9691BB01, 11, 0x7B57, 0x0, 0x77CB),
  (0x3FE6B9A42DCB750D, 0x3FE2749A2BBC4113, 11, 0x7B57, 0x0, 0x77CB),
  (0x3FE6B9A4C5241EF9, 0x3FE274992A4CF5C0, 11, 0x7B57, 0x0, 0x77CB),
  (0x3FE6B9A53A88D126, 0x3FE27498629E64C1, 11, 0x7B57, 0x0, 0x77CB),
  (0x3FE6B9A59A73A854, 0x3FE27497BF777BD1, 11, 0x7B57, 0x0, 0x77CB),
  (0x3FE6B9A5EB8C7AB9, 0x3FE2749735861083, 11, 0x7B57, 0x0, 0x77CB),
  (0x3FE6B9A631CC5240, 0x3FE27496BE08307E, 11, 0x7B57, 0x0, 0x77CB),
  (0x3FE6B9A66FC331AE, 0x3FE2749654A201E3, 11, 0x7B57, 0x0, 0x77CB),
  (0x3FE6B9A6A731046D, 0x3FE27495F6599F80, 11, 0x7B57, 0x0, 0x77CB),
  (0x3FE6B9A2A6336836, 0x3FE2749D5EECB969, 12, 0x16E79, 0x0, 0xEC0A),
  (0x3FE6B9A31338F463, 0x3FE2749CFF0AA88C, 12, 0x16E79, 0x0, 0xEC0A),
  (0x3FE6B9A360931801, 0x3FE2749CBB02F28F, 12, 0x16E79, 0x0, 0xEC0A),
  (0x3FE6B9A39C92D37F, 0x3FE2749C863E45CB, 12, 0x16E79, 0x0, 0xEC0A),
  (0x3FE6B9A3CD98A42E, 0x3FE2749C5B20E1B2, 12, 0x16E79, 0x0, 0xEC0A),
  (0x3FE6B9A3F70B5BDE, 0x3FE2749C36ACE686, 12, 0x16E79, 0x0, 0xEC0A),
  (0x3FE6B9A41AF2C7CC, 0x3FE2749C17192BB4, 12, 0x16E79, 0x0, 0xEC0A),
  (0x3FE6B9A43A9E305A, 0x3FE2749BFB3ED0D5, 12, 0x16E79, 0x0, 0xEC0A),
  (0x3FE6B9A456F2834A, 0x3FE2749BE2547EF1, 12, 0x16E79, 0x0, 0xEC0A),
  (0x3FE6B9A27F0389C7, 0x3FE2749A72CBAA72, 13, 0x35F61, 0x0, 0x3468C),
  (0x3FE6B9A29D7CB9E5, 0x3FE2749A3EF64792, 13, 0x35F61, 0x0, 0x3468C),
  (0x3FE6B9A2B31BC1D1, 0x3FE2749A1A2F800E, 13, 0x35F61, 0x0, 0x3468C),
  (0x3FE6B9A2C3E10F87, 0x3FE27499FDA8D47C, 13, 0x35F61, 0x0, 0x3468C),
  (0x3FE6B9A2D194F1F0, 0x3FE27499E65A1D2F, 13, 0x35F61, 0x0, 0x3468C),
  (0x3FE6B9A2DD2AD1AF, 0x3FE27499D2A553D6, 13, 0x35F61, 0x0, 0x3468C),
  (0x3FE6B9A2E733F9DC, 0x3FE27499C19355AB, 13, 0x35F61, 0x0, 0x3468C),
  (0x3FE6B9A2F00E220E, 0x3FE27499B284BA4F, 13, 0x35F61, 0x0, 0x3468C),
  (0x3FE6B9A2F7F94791, 0x3FE27499A50CAA18, 13, 0x35F61, 0x0, 0x3468C),
  (0x3FE6B9A10C559C1B, 0x3FE2749BE3997BA6, 14, 0xA054D, 0x0, 0x67444),
  (0x3FE6B9A11BE8BE61, 0x3FE2749BD5E6E364, 14, 0xA054D, 0x0, 0x67444),
  (0x3FE6B9A126F5A901, 0x3FE2749BCC2EEB70, 14, 0xA054D, 0x0, 0x67444),
  (0x3FE6B9A12F87F034, 0x3FE2749BC4A519F1, 14, 0xA054D, 0x0, 0x67444),
  (0x3FE6B9A13688CB47, 0x3FE2749BBE7C532F, 14, 0xA054D, 0x0, 0x67444),
  (0x3FE6B9A13C74A1CB, 0x3FE2749BB9472DF2, 14, 0xA054D, 0x0, 0x67444),
  (0x3FE6B9A14195B5E7, 0x3FE2749BB4C45B3A, 14, 0xA054D, 0x0, 0x67444),
  (0x3FE6B9A1461BED8D, 0x3FE2749BB0C9BAED, 14, 0xA054D, 0x0, 0x67444),
  (0x3FE6B9A14A27FD1A, 0x3FE2749BAD3A89BB, 14, 0xA054D, 0x0, 0x67444),
  (0x3FE6B9A14C0ED85F, 0x3FE2749BBFDD065E, 15, 0x179BA4, 0x0, 0x16EDD5),
  (0x3FE6B9A150695C65, 0x3FE2749BB87564C5, 15, 0x179BA4, 0x0, 0x16EDD5),
  (0x3FE6B9A153801F55, 0x3FE2749BB3346BFF, 15, 0x179BA4, 0x0, 0x16EDD5),
  (0x3FE6B9A155E57C13, 0x3FE2749BAF212E43, 15, 0x179BA4, 0x0, 0x16EDD5),
  (0x3FE6B9A157DAA35B, 0x3FE2749BABCCCA66, 15, 0x179BA4, 0x0, 0x16EDD5),
  (0x3FE6B9A159825B7A, 0x3FE2749BA8FC1AE6, 15, 0x179BA4, 0x0, 0x16EDD5),
  (0x3FE6B9A15AF1664C, 0x3FE2749BA68BD1A0, 15, 0x179BA4, 0x0, 0x16EDD5),
  (0x3FE6B9A15C352762, 0x3FE2749BA46528CD, 15, 0x179BA4, 0x0, 0x16EDD5),
  (0x3FE6B9A15D56C309, 0x3FE2749BA27893E4, 15, 0x179BA4, 0x0, 0x16EDD5)]

/-- The rows of /repo/data/f32/loc2index32.txt:1-144, read by `TestLoc2Index32`. -/
def locRows32 : List (ℕ × ℕ × ℕ × ℕ × ℕ × ℕ) := [
  (0x3F311FBF, 0x3F35A99C, 0, 0x1, 0x0, 0x1),
  (0x3F311FED, 0x3F2C5E9D, 0, 0x1, 0x0, 0x1),
  (0x3F31200E, 0x3F25C6B1, 0, 0x1, 0x0, 0x1),
  (0x3F312027, 0x3F20A96F, 0, 0x1, 0x0, 0x1),
  (0x3F31203C, 0x3F1C7BB2, 0, 0x1, 0x0, 0x1),
  (0x3F31204E, 0x3F18F33E, 0, 0x1, 0x0, 0x1),
  (0x3F31205D, 0x3F15E3C5, 0, 0x1, 0x0, 0x1),
  (0x3F31206A, 0x3F1330B3, 0, 0x1, 0x0, 0x1),
  (0x3F312076, 0x3F10C684, 0, 0x1, 0x0, 0x1),
  (0x3F3B9D1E, 0x3F146852, 1, 0x2, 0x0, 0x2),
  (0x3F3D47A5, 0x3F116540, 1, 0x2, 0x0, 0x2),
  (0x3F3E7644, 0x3F0F422A, 1, 0x2, 0x0, 0x2),
  (0x3F3F6100, 0x3F0D99D0, 1, 0x2, 0x0, 0x2),
  (0x3F4020CB, 0x3F0C3F18, 1, 0x2, 0x0, 0x2),
  (0x3F40C2F3, 0x3F0B19F2, 1, 0x2, 0x0, 0x2),
  (0x3F414F6B, 0x3F0A1C02, 1, 0x2, 0x0, 0x2),
  (0x3F41CB51, 0x3F093C06, 1, 0x2, 0x0, 0x2),
  (0x3F423A26, 0x3F0873A8, 1, 0x2, 0x0, 0x2),
  (0x3F3A408E, 0x3F183CDB, 2, 0x6, 0x0, 0x4),
  (0x3F3B1F2F, 0x3F17775C, 2, 0x6, 0x0, 0x4),
  (0x3F3BBD25, 0x3F16EB3C, 2, 0x6, 0x0, 0x4),
  (0x3F3C37AA, 0x3F167E8C, 2, 0x6, 0x0, 0x4),
  (0x3F3C9BC6, 0x3F1625BE, 2, 0x6, 0x0, 0x4),
  (0x3F3CF06A, 0x3F15DAA8, 2, 0x6, 0x0, 0x4),
  (0x3F3D39BB, 0x3F15999E, 2, 0x6, 0x0, 0x4),
  (0x3F3D7A67, 0x3F15603F, 2, 0x6, 0x0, 0x4),
  (0x3F3DB441, 0x3F152CED, 2, 0x6, 0x0, 0x4),
  (0x3F355750, 0x3F14D2A2, 3, 0xD, 0x0, 0xD),
  (0x3F3595E5, 0x3F146860, 3, 0xD, 0x0, 0xD),
  (0x3F35C24C, 0x3F141CFC, 3, 0xD, 0x0, 0xD),
  (0x3F35E4BC, 0x3F13E282, 3, 0xD, 0x0, 0xD),
  (0x3F3600E0, 0x3F13B2BB, 3, 0xD, 0x0, 0xD),
  (0x3F3618AB, 0x3F138A55, 3, 0xD, 0x0, 0xD),
  (0x3F362D47, 0x3F136757, 3, 0xD, 0x0, 0xD),
  (0x3F363F74, 0x3F134879, 3, 0xD, 0x0, 0xD),
  (0x3F364FB7, 0x3F132CDC, 3, 0xD, 0x0, 0xD),
  (0x3F360585, 0x3F131775, 4, 0x27, 0x0, 0x19),
  (0x3F36256D, 0x3F12FB3E, 4, 0x27, 0x0, 0x19),
  (0x3F363C0F, 0x3F12E738, 4, 0x27, 0x0, 0x19),
  (0x3F364D9E, 0x3F12D7B1, 4, 0x27, 0x0, 0x19),
  (0x3F365BF7, 0x3F12CB00, 4, 0x27, 0x0, 0x19),
  (0x3F366818, 0x3F12C046, 4, 0x27, 0x0, 0x19),
  (0x3F367299, 0x3F12B6FB, 4, 0x27, 0x0, 0x19),
  (0x3F367BDE, 0x3F12AEC9, 4, 0x27, 0x0, 0x19),
  (0x3F368428, 0x3F12A774, 4, 0x27, 0x0, 0x19),
  (0x3F35DE39, 0x3F132DAF, 5, 0x5C, 0x0, 0x59),
  (0x3F35E723, 0x3F131E77, 5, 0x5C, 0x0, 0x59),
  (0x3F35ED77, 0x3F1313AA, 5, 0x5C, 0x0, 0x59),
  (0x3F35F25F, 0x3F130B4A, 5, 0x5C, 0x0, 0x59),
  (0x3F35F661, 0x3F130472, 5, 0x5C, 0x0, 0x59),
  (0x3F35F9C5, 0x3F12FEA9, 5, 0x5C, 0x0, 0x59),
  (0x3F35FCB4, 0x3F12F9A6, 5, 0x5C, 0x0, 0x59),
  (0x3F35FF4B, 0x3F12F53B, 5, 0x5C, 0x0, 0x59),
  (0x3F36019D, 0x3F12F146, 5, 0x5C, 0x0, 0x59),
  (0x3F35B68D, 0x3F13936F, 6, 0x111, 0x0, 0xB0),
  (0x3F35BB1D, 0x3F138F6B, 6, 0x111, 0x0, 0xB0),
  (0x3F35BE5B, 0x3F138C92, 6, 0x111, 0x0, 0xB0),
  (0x3F35C0DE, 0x3F138A5C, 6, 0x111, 0x0, 0xB0),
  (0x3F35C2EB, 0x3F13888E, 6, 0x111, 0x0, 0xB0),
  (0x3F35C4A7, 0x3F138707, 6, 0x111, 0x0, 0xB0),
  (0x3F35C628, 0x3F1385B5, 6, 0x111, 0x0, 0xB0),
  (0x3F35C77C, 0x3F13848A, 6, 0x111, 0x0, 0xB0),
  (0x3F35C8AB, 0x3F13837F, 6, 0x111, 0x0, 0xB0),
  (0x3F35C540, 0x3F13AB70, 7, 0x284, 0x0, 0x272),
  (0x3F35C687, 0x3F13A944, 7, 0x284, 0x0, 0x272),
  (0x3F35C76E, 0x3F13A7BA, 7, 0x284, 0x0, 0x272),
  (0x3F35C822, 0x3F13A688, 7, 0x284, 0x0, 0x272),
  (0x3F35C8B5, 0x3F13A58E, 7, 0x284, 0x0, 0x272),
  (0x3F35C931, 0x3F13A4BB, 7, 0x284, 0x0, 0x272),
  (0x3F35C99D, 0x3F13A404, 7, 0x284, 0x0, 0x272),
  (0x3F35C9FC, 0x3F13A363, 7, 0x284, 0x0, 0x272),
  (0x3F35CA51, 0x3F13A2D2, 7, 0x284, 0x0, 0x272),
  (0x3F35D2A3, 0x3F13A174, 8, 0x77B, 0x0, 0x4D1),
  (0x3F35D34A, 0x3F13A0E1, 8, 0x77B, 0x0, 0x4D1),
  (0x3F35D3C1, 0x3F13A079, 8, 0x77B, 0x0, 0x4D1),
  (0x3F35D41D, 0x3F13A028, 8, 0x77B, 0x0, 0x4D1),
  (0x3F35D468, 0x3F139FE6, 8, 0x77B, 0x0, 0x4D1),
  (0x3F35D4A7, 0x3F139FAF, 8, 0x77B, 0x0, 0x4D1),
  (0x3F35D4DE, 0x3F139F7E, 8, 0x77B, 0x0, 0x4D1),
  (0x3F35D50F, 0x3F139F54, 8, 0x77B, 0x0, 0x4D1),
  (0x3F35D53A, 0x3F139F2D, 8, 0x77B, 0x0, 0x4D1),
  (0x3F35CE5D, 0x3F13A3DA, 9, 0x119F, 0x0, 0x111D),
  (0x3F35CE8C, 0x3F13A38B, 9, 0x119F, 0x0, 0x111D),
  (0x3F35CEAD, 0x3F13A352, 9, 0x119F, 0x0, 0x111D),
  (0x3F35CEC6, 0x3F13A327, 9, 0x119F, 0x0, 0x111D),
  (0x3F35CEDB, 0x3F13A303, 9, 0x119F, 0x0, 0x111D),
  (0x3F35CEED, 0x3F13A2E5, 9, 0x119F, 0x0, 0x111D),
  (0x3F35CEFD, 0x3F13A2CB, 9, 0x119F, 0x0, 0x111D),
  (0x3F35CF0A, 0x3F13A2B4, 9, 0x119F, 0x0, 0x111D),
  (0x3F35CF16, 0x3F13A29F, 9, 0x119F, 0x0, 0x111D),
  (0x3F35CCCE, 0x3F13A45F, 10, 0x345A, 0x0, 0x21B8),
  (0x3F35CCE6, 0x3F13A44A, 10, 0x345A, 0x0, 0x21B8),
  (0x3F35CCF7, 0x3F13A43B, 10, 0x345A, 0x0, 0x21B8),
  (0x3F35CD04, 0x3F13A430, 10, 0x345A, 0x0, 0x21B8),
  (0x3F35CD0F, 0x3F13A426, 10, 0x345A, 0x0, 0x21B8),
  (0x3F35CD18, 0x3F13A41E, 10, 0x345A, 0x0, 0x21B8),
  (0x3F35CD20, 0x3F13A418, 10, 0x345A, 0x0, 0x21B8),
  (0x3F35CD26, 0x3F13A411, 10, 0x345A, 0x0, 0x21B8),
  (0x3F35CD2D, 0x3F13A40C, 10, 0x345A, 0x0, 0x21B8),
  (0x3F35CD1B, 0x3F13A4DD, 11, 0x7B57, 0x0, 0x77CB),
  (0x3F35CD21, 0x3F13A4D1, 11, 0x7B57, 0x0, 0x77CB),
  (0x3F35CD26, 0x3F13A4C9, 11, 0x7B57, 0x0, 0x77CB),
  (0x3F35CD2A, 0x3F13A4C3, 11, 0x7B57, 0x0, 0x77CB),
  (0x3F35CD2D, 0x3F13A4BE, 11, 0x7B57, 0x0, 0x77CB),
  (0x3F35CD2F, 0x3F13A4BA, 11, 0x7B57, 0x0, 0x77CB),
  (0x3F35CD32, 0x3F13A4B6, 11, 0x7B57, 0x0, 0x77CB),
  (0x3F35CD33, 0x3F13A4B3, 11, 0x7B57, 0x0, 0x77CB),
  (0x3F35CD35, 0x3F13A4B0, 11, 0x7B57, 0x0, 0x77CB),
  (0x3F35CD15, 0x3F13A4EB, 12, 0x16E79, 0x0, 0xEC0A),
  (0x3F35CD19, 0x3F13A4E8, 12, 0x16E79, 0x0, 0xEC0A),
  (0x3F35CD1B, 0x3F13A4E6, 12, 0x16E79, 0x0, 0xEC0A),
  (0x3F35CD1D, 0x3F13A4E4, 12, 0x16E79, 0x0, 0xEC0A),
  (0x3F35CD1E, 0x3F13A4E3, 12, 0x16E79, 0x0, 0xEC0A),
  (0x3F35CD20, 0x3F13A4E2, 12, 0x16E79, 0x0, 0xEC0A),
  (0x3F35CD21, 0x3F13A4E1, 12, 0x16E79, 0x0, 0xEC0A),
  (0x3F35CD22, 0x3F13A4E0, 12, 0x16E79, 0x0, 0xEC0A),
  (0x3F35CD23, 0x3F13A4DF, 12, 0x16E79, 0x0, 0xEC0A),
  (0x3F35CD14, 0x3F13A4D4, 13, 0x35F61, 0x0, 0x3468C),
  (0x3F35CD15, 0x3F13A4D2, 13, 0x35F61, 0x0, 0x3468C),
  (0x3F35CD16, 0x3F13A4D1, 13, 0x35F61, 0x0, 0x3468C),
  (0x3F35CD16, 0x3F13A4D0, 13, 0x35F61, 0x0, 0x3468C),
  (0x3F35CD17, 0x3F13A4CF, 13, 0x35F61, 0x0, 0x3468C),
  (0x3F35CD17, 0x3F13A4CF, 13, 0x35F61, 0x0, 0x3468C),
  (0x3F35CD17, 0x3F13A4CE, 13, 0x35F61, 0x0, 0x3468C),
  (0x3F35CD18, 0x3F13A4CE, 13, 0x35F61, 0x0, 0x3468C),
  (0x3F35CD18, 0x3F13A4CD, 13, 0x35F61, 0x0, 0x3468C),
  (0x3F35CD08, 0x3F13A4DF, 14, 0xA054D, 0x0, 0x67444),
  (0x3F35CD09, 0x3F13A4DF, 14, 0xA054D, 0x0, 0x67444),
  (0x3F35CD09, 0x3F13A4DE, 14, 0xA054D, 0x0, 0x67444),
  (0x3F35CD09, 0x3F13A4DE, 14, 0xA054D, 0x0, 0x67444),
  (0x3F35CD0A, 0x3F13A4DE, 14, 0xA054D, 0x0, 0x67444),
  (0x3F35CD0A, 0x3F13A4DE, 14, 0xA054D, 0x0, 0x67444),
  (0x3F35CD0A, 0x3F13A4DE, 14, 0xA054D, 0x0, 0x67444),
  (0x3F35CD0A, 0x3F13A4DE, 14, 0xA054D, 0x0, 0x67444),
  (0x3F35CD0A, 0x3F13A4DD, 14, 0xA054D, 0x0, 0x67444),
  (0x3F35CD0A, 0x3F13A4DE, 15, 0x179BA4, 0x0, 0x16EDD5),
  (0x3F35CD0B, 0x3F13A4DE, 15, 0x179BA4, 0x0, 0x16EDD5),
  (0x3F35CD0B, 0x3F13A4DE, 15, 0x179BA4, 0x0, 0x16EDD5),
  (0x3F35CD0B, 0x3F13A4DD, 15, 0x179BA4, 0x0, 0x16EDD5),
  (0x3F35CD0B, 0x3F13A4DD, 15, 0x179BA4, 0x0, 0x16EDD5),
  (0x3F35CD0B, 0x3F13A4DD, 15, 0x179BA4, 0x0, 0x16EDD5),
  (0x3F35CD0B, 0x3F13A4DD, 15, 0x179BA4, 0x0, 0x16EDD5),
  (0x3F35CD0B, 0x3F13A4DD, 15, 0x179BA4, 0x0, 0x16EDD5),
  (0x3F35CD0B, 0x3F13A4DD, 15, 0x179BA4, 0x0, 0x16EDD5)]

/-- The text of a file with the given rows, as /repo/data/generate_test_loc2index.py:145 prints them. -/
def locText (width : ℕ) (rows : List (ℕ × ℕ × ℕ × ℕ × ℕ × ℕ)) : List Char :=
  rows.flatMap (fun q => writeLine width q.1 q.2.1 q.2.2.1 q.2.2.2.1 q.2.2.2.2.1 q.2.2.2.2.2)

/-- The text of /repo/data/f64/loc2index64.txt and /repo/data/f32/loc2index32.txt: the files are exactly these characters (compared by a script outside of Lean). -/
def locText64 : List Char := locText 16 locRows64
def locText32 : List Char := locText 8 locRows32

end ZkLoc.Vectors
