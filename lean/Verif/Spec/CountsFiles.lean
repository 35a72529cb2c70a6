import Mathlib.Data.Nat.Notation

/-!
# The files of /repo/benchmarks/float

The 43 files written by `TestFloatCircuitConstraints`, copied byte by byte, in the order in which the test writes them.
-/

namespace ZkLoc.Published

/-- Name below /repo/benchmarks/float and contents. -/
def floatFiles : List (String × String) :=
  [("f32/constraints_init (T_RC = 8).csv",
    "#Operations, #Constraints (Total), #Constraints (Amortized)\n1, 321, 321\n2, 351, 175\n4, 411, 102\n8, 531, 66\n16, 771, 48\n32, 1251, 39\n64, 2211, 34\n128, 4131, 32\n256, 7971, 31\n512, 15651, 30\n1024, 31011, 30\n2048, 61731, 30\n4096, 123171, 30\n8192, 246051, 30\n16384, 491811, 30\n32768, 983331, 30\n"),
   ("f32/constraints_add (T_RC = 8).csv",
    "#Operations, #Constraints (Total), #Constraints (Amortized)\n1, 376, 376\n2, 461, 230\n4, 631, 157\n8, 971, 121\n16, 1651, 103\n32, 3011, 94\n64, 5731, 89\n128, 11171, 87\n256, 22051, 86\n512, 43811, 85\n1024, 87331, 85\n2048, 174371, 85\n4096, 348451, 85\n8192, 696611, 85\n16384, 1392931, 85\n32768, 2785571, 85\n"),
   ("f32/constraints_sub (T_RC = 8).csv",
    "#Operations, #Constraints (Total), #Constraints (Amortized)\n1, 376, 376\n2, 461, 230\n4, 631, 157\n8, 971, 121\n16, 1651, 103\n32, 3011, 94\n64, 5731, 89\n128, 11171, 87\n256, 22051, 86\n512, 43811, 85\n1024, 87331, 85\n2048, 174371, 85\n4096, 348451, 85\n8192, 696611, 85\n16384, 1392931, 85\n32768, 2785571, 85\n"),
   ("f32/constraints_mul (T_RC = 8).csv",
    "#Operations, #Constraints (Total), #Constraints (Amortized)\n1, 355, 355\n2, 419, 209\n4, 547, 136\n8, 803, 100\n16, 1315, 82\n32, 2339, 73\n64, 4387, 68\n128, 8483, 66\n256, 16675, 65\n512, 33059, 64\n1024, 65827, 64\n2048, 131363, 64\n4096, 262435, 64\n8192, 524579, 64\n16384, 1048867, 64\n32768, 2097443, 64\n"),
   ("f32/constraints_div (T_RC = 8).csv",
    "#Operations, #Constraints (Total), #Constraints (Amortized)\n1, 367, 367\n2, 443, 221\n4, 595, 148\n8, 899, 112\n16, 1507, 94\n32, 2723, 85\n64, 5155, 80\n128, 10019, 78\n256, 19747, 77\n512, 39203, 76\n1024, 78115, 76\n2048, 155939, 76\n4096, 311587, 76\n8192, 622883, 76\n16384, 1245475, 76\n32768, 2490659, 76\n"),
   ("f32/constraints_sqrt (T_RC = 8).csv",
    "#Operations, #Constraints (Total), #Constraints (Amortized)\n1, 336, 336\n2, 381, 190\n4, 471, 117\n8, 651, 81\n16, 1011, 63\n32, 1731, 54\n64, 3171, 49\n128, 6051, 47\n256, 11811, 46\n512, 23331, 45\n1024, 46371, 45\n2048, 92451, 45\n4096, 184611, 45\n8192, 368931, 45\n16384, 737571, 45\n32768, 1474851, 45\n"),
   ("f32/constraints_cmp (T_RC = 8).csv",
    "#Operations, #Constraints (Total), #Constraints (Amortized)\n1, 324, 324\n2, 357, 178\n4, 423, 105\n8, 555, 69\n16, 819, 51\n32, 1347, 42\n64, 2403, 37\n128, 4515, 35\n256, 8739, 34\n512, 17187, 33\n1024, 34083, 33\n2048, 67875, 33\n4096, 135459, 33\n8192, 270627, 33\n16384, 540963, 33\n32768, 1081635, 33\n"),
   ("f32/constraints_init (T_RC = 12).csv",
    "#Operations, #Constraints (Total), #Constraints (Amortized)\n1, 4159, 4159\n2, 4187, 2093\n4, 4243, 1060\n8, 4355, 544\n16, 4579, 286\n32, 5027, 157\n64, 5923, 92\n128, 7715, 60\n256, 11299, 44\n512, 18467, 36\n1024, 32803, 32\n2048, 61475, 30\n4096, 118819, 29\n8192, 233507, 28\n16384, 462883, 28\n32768, 921635, 28\n"),
   ("f32/constraints_add (T_RC = 12).csv",
    "#Operations, #Constraints (Total), #Constraints (Amortized)\n1, 4205, 4205\n2, 4279, 2139\n4, 4427, 1106\n8, 4723, 590\n16, 5315, 332\n32, 6499, 203\n64, 8867, 138\n128, 13603, 106\n256, 23075, 90\n512, 42019, 82\n1024, 79907, 78\n2048, 155683, 76\n4096, 307235, 75\n8192, 610339, 74\n16384, 1216547, 74\n32768, 2428963, 74\n"),
   ("f32/constraints_sub (T_RC = 12).csv",
    "#Operations, #Constraints (Total), #Constraints (Amortized)\n1, 4205, 4205\n2, 4279, 2139\n4, 4427, 1106\n8, 4723, 590\n16, 5315, 332\n32, 6499, 203\n64, 8867, 138\n128, 13603, 106\n256, 23075, 90\n512, 42019, 82\n1024, 79907, 78\n2048, 155683, 76\n4096, 307235, 75\n8192, 610339, 74\n16384, 1216547, 74\n32768, 2428963, 74\n"),
   ("f32/constraints_mul (T_RC = 12).csv",
    "#Operations, #Constraints (Total), #Constraints (Amortized)\n1, 4183, 4183\n2, 4235, 2117\n4, 4339, 1084\n8, 4547, 568\n16, 4963, 310\n32, 5795, 181\n64, 7459, 116\n128, 10787, 84\n256, 17443, 68\n512, 30755, 60\n1024, 57379, 56\n2048, 110627, 54\n4096, 217123, 53\n8192, 430115, 52\n16384, 856099, 52\n32768, 1708067, 52\n"),
   ("f32/constraints_div (T_RC = 12).csv",
    "#Operations, #Constraints (Total), #Constraints (Amortized)\n1, 4195, 4195\n2, 4259, 2129\n4, 4387, 1096\n8, 4643, 580\n16, 5155, 322\n32, 6179, 193\n64, 8227, 128\n128, 12323, 96\n256, 20515, 80\n512, 36899, 72\n1024, 69667, 68\n2048, 135203, 66\n4096, 266275, 65\n8192, 528419, 64\n16384, 1052707, 64\n32768, 2101283, 64\n"),
   ("f32/constraints_sqrt (T_RC = 12).csv",
    "#Operations, #Constraints (Total), #Constraints (Amortized)\n1, 4172, 4172\n2, 4213, 2106\n4, 4295, 1073\n8, 4459, 557\n16, 4787, 299\n32, 5443, 170\n64, 6755, 105\n128, 9379, 73\n256, 14627, 57\n512, 25123, 49\n1024, 46115, 45\n2048, 88099, 43\n4096, 172067, 42\n8192, 340003, 41\n16384, 675875, 41\n32768, 1347619, 41\n"),
   ("f32/constraints_cmp (T_RC = 12).csv",
    "#Operations, #Constraints (Total), #Constraints (Amortized)\n1, 4161, 4161\n2, 4191, 2095\n4, 4251, 1062\n8, 4371, 546\n16, 4611, 288\n32, 5091, 159\n64, 6051, 94\n128, 7971, 62\n256, 11811, 46\n512, 19491, 38\n1024, 34851, 34\n2048, 65571, 32\n4096, 127011, 31\n8192, 249891, 30\n16384, 495651, 30\n32768, 987171, 30\n"),
   ("f32/constraints_init (T_RC = 16).csv",
    "#Operations, #Constraints (Total), #Constraints (Amortized)\n1, 65598, 65598\n2, 65625, 32812\n4, 65679, 16419\n8, 65787, 8223\n16, 66003, 4125\n32, 66435, 2076\n64, 67299, 1051\n128, 69027, 539\n256, 72483, 283\n512, 79395, 155\n1024, 93219, 91\n2048, 120867, 59\n4096, 176163, 43\n8192, 286755, 35\n16384, 507939, 31\n32768, 950307, 29\n"),
   ("f32/constraints_add (T_RC = 16).csv",
    "#Operations, #Constraints (Total), #Constraints (Amortized)\n1, 65640, 65640\n2, 65709, 32854\n4, 65847, 16461\n8, 66123, 8265\n16, 66675, 4167\n32, 67779, 2118\n64, 69987, 1093\n128, 74403, 581\n256, 83235, 325\n512, 100899, 197\n1024, 136227, 133\n2048, 206883, 101\n4096, 348195, 85\n8192, 630819, 77\n16384, 1196067, 73\n32768, 2326563, 71\n"),
   ("f32/constraints_sub (T_RC = 16).csv",
    "#Operations, #Constraints (Total), #Constraints (Amortized)\n1, 65640, 65640\n2, 65709, 32854\n4, 65847, 16461\n8, 66123, 8265\n16, 66675, 4167\n32, 67779, 2118\n64, 69987, 1093\n128, 74403, 581\n256, 83235, 325\n512, 100899, 197\n1024, 136227, 133\n2048, 206883, 101\n4096, 348195, 85\n8192, 630819, 77\n16384, 1196067, 73\n32768, 2326563, 71\n"),
   ("f32/constraints_mul (T_RC = 16).csv",
    "#Operations, #Constraints (Total), #Constraints (Amortized)\n1, 65620, 65620\n2, 65669, 32834\n4, 65767, 16441\n8, 65963, 8245\n16, 66355, 4147\n32, 67139, 2098\n64, 68707, 1073\n128, 71843, 561\n256, 78115, 305\n512, 90659, 177\n1024, 115747, 113\n2048, 165923, 81\n4096, 266275, 65\n8192, 466979, 57\n16384, 868387, 53\n32768, 1671203, 51\n"),
   ("f32/constraints_div (T_RC = 16).csv",
    "#Operations, #Constraints (Total), #Constraints (Amortized)\n1, 65632, 65632\n2, 65693, 32846\n4, 65815, 16453\n8, 66059, 8257\n16, 66547, 4159\n32, 67523, 2110\n64, 69475, 1085\n128, 73379, 573\n256, 81187, 317\n512, 96803, 189\n1024, 128035, 125\n2048, 190499, 93\n4096, 315427, 77\n8192, 565283, 69\n16384, 1064995, 65\n32768, 2064419, 63\n"),
   ("f32/constraints_sqrt (T_RC = 16).csv",
    "#Operations, #Constraints (Total), #Constraints (Amortized)\n1, 65609, 65609\n2, 65647, 32823\n4, 65723, 16430\n8, 65875, 8234\n16, 66179, 4136\n32, 66787, 2087\n64, 68003, 1062\n128, 70435, 550\n256, 75299, 294\n512, 85027, 166\n1024, 104483, 102\n2048, 143395, 70\n4096, 221219, 54\n8192, 376867, 46\n16384, 688163, 42\n32768, 1310755, 40\n"),
   ("f32/constraints_cmp (T_RC = 16).csv",
    "#Operations, #Constraints (Total), #Constraints (Amortized)\n1, 65601, 65601\n2, 65631, 32815\n4, 65691, 16422\n8, 65811, 8226\n16, 66051, 4128\n32, 66531, 2079\n64, 67491, 1054\n128, 69411, 542\n256, 73251, 286\n512, 80931, 158\n1024, 96291, 94\n2048, 127011, 62\n4096, 188451, 46\n8192, 311331, 38\n16384, 557091, 34\n32768, 1048611, 32\n"),
   ("f64/constraints_init (T_RC = 8).csv",
    "#Operations, #Constraints (Total), #Constraints (Amortized)\n1, 368, 368\n2, 413, 206\n4, 503, 125\n8, 683, 85\n16, 1043, 65\n32, 1763, 55\n64, 3203, 50\n128, 6083, 47\n256, 11843, 46\n512, 23363, 45\n1024, 46403, 45\n2048, 92483, 45\n4096, 184643, 45\n8192, 368963, 45\n16384, 737603, 45\n32768, 1474883, 45\n"),
   ("f64/constraints_add (T_RC = 8).csv",
    "#Operations, #Constraints (Total), #Constraints (Amortized)\n1, 436, 436\n2, 549, 274\n4, 775, 193\n8, 1227, 153\n16, 2131, 133\n32, 3939, 123\n64, 7555, 118\n128, 14787, 115\n256, 29251, 114\n512, 58179, 113\n1024, 116035, 113\n2048, 231747, 113\n4096, 463171, 113\n8192, 926019, 113\n16384, 1851715, 113\n32768, 3703107, 113\n"),
   ("f64/constraints_sub (T_RC = 8).csv",
    "#Operations, #Constraints (Total), #Constraints (Amortized)\n1, 436, 436\n2, 549, 274\n4, 775, 193\n8, 1227, 153\n16, 2131, 133\n32, 3939, 123\n64, 7555, 118\n128, 14787, 115\n256, 29251, 114\n512, 58179, 113\n1024, 116035, 113\n2048, 231747, 113\n4096, 463171, 113\n8192, 926019, 113\n16384, 1851715, 113\n32768, 3703107, 113\n"),
   ("f64/constraints_mul (T_RC = 8).csv",
    "#Operations, #Constraints (Total), #Constraints (Amortized)\n1, 411, 411\n2, 499, 249\n4, 675, 168\n8, 1027, 128\n16, 1731, 108\n32, 3139, 98\n64, 5955, 93\n128, 11587, 90\n256, 22851, 89\n512, 45379, 88\n1024, 90435, 88\n2048, 180547, 88\n4096, 360771, 88\n8192, 721219, 88\n16384, 1442115, 88\n32768, 2883907, 88\n"),
   ("f64/constraints_div (T_RC = 8).csv",
    "#Operations, #Constraints (Total), #Constraints (Amortized)\n1, 421, 421\n2, 519, 259\n4, 715, 178\n8, 1107, 138\n16, 1891, 118\n32, 3459, 108\n64, 6595, 103\n128, 12867, 100\n256, 25411, 99\n512, 50499, 98\n1024, 100675, 98\n2048, 201027, 98\n4096, 401731, 98\n8192, 803139, 98\n16384, 1605955, 98\n32768, 3211587, 98\n"),
   ("f64/constraints_sqrt (T_RC = 8).csv",
    "#Operations, #Constraints (Total), #Constraints (Amortized)\n1, 384, 384\n2, 445, 222\n4, 567, 141\n8, 811, 101\n16, 1299, 81\n32, 2275, 71\n64, 4227, 66\n128, 8131, 63\n256, 15939, 62\n512, 31555, 61\n1024, 62787, 61\n2048, 125251, 61\n4096, 250179, 61\n8192, 500035, 61\n16384, 999747, 61\n32768, 1999171, 61\n"),
   ("f64/constraints_cmp (T_RC = 8).csv",
    "#Operations, #Constraints (Total), #Constraints (Amortized)\n1, 360, 360\n2, 397, 198\n4, 471, 117\n8, 619, 77\n16, 915, 57\n32, 1507, 47\n64, 2691, 42\n128, 5059, 39\n256, 9795, 38\n512, 19267, 37\n1024, 38211, 37\n2048, 76099, 37\n4096, 151875, 37\n8192, 303427, 37\n16384, 606531, 37\n32768, 1212739, 37\n"),
   ("f64/constraints_init (T_RC = 12).csv",
    "#Operations, #Constraints (Total), #Constraints (Amortized)\n1, 4200, 4200\n2, 4237, 2118\n4, 4311, 1077\n8, 4459, 557\n16, 4755, 297\n32, 5347, 167\n64, 6531, 102\n128, 8899, 69\n256, 13635, 53\n512, 23107, 45\n1024, 42051, 41\n2048, 79939, 39\n4096, 155715, 38\n8192, 307267, 37\n16384, 610371, 37\n32768, 1216579, 37\n"),
   ("f64/constraints_add (T_RC = 12).csv",
    "#Operations, #Constraints (Total), #Constraints (Amortized)\n1, 4255, 4255\n2, 4347, 2173\n4, 4531, 1132\n8, 4899, 612\n16, 5635, 352\n32, 7107, 222\n64, 10051, 157\n128, 15939, 124\n256, 27715, 108\n512, 51267, 100\n1024, 98371, 96\n2048, 192579, 94\n4096, 380995, 93\n8192, 757827, 92\n16384, 1511491, 92\n32768, 3018819, 92\n"),
   ("f64/constraints_sub (T_RC = 12).csv",
    "#Operations, #Constraints (Total), #Constraints (Amortized)\n1, 4255, 4255\n2, 4347, 2173\n4, 4531, 1132\n8, 4899, 612\n16, 5635, 352\n32, 7107, 222\n64, 10051, 157\n128, 15939, 124\n256, 27715, 108\n512, 51267, 100\n1024, 98371, 96\n2048, 192579, 94\n4096, 380995, 93\n8192, 757827, 92\n16384, 1511491, 92\n32768, 3018819, 92\n"),
   ("f64/constraints_mul (T_RC = 12).csv",
    "#Operations, #Constraints (Total), #Constraints (Amortized)\n1, 4231, 4231\n2, 4299, 2149\n4, 4435, 1108\n8, 4707, 588\n16, 5251, 328\n32, 6339, 198\n64, 8515, 133\n128, 12867, 100\n256, 21571, 84\n512, 38979, 76\n1024, 73795, 72\n2048, 143427, 70\n4096, 282691, 69\n8192, 561219, 68\n16384, 1118275, 68\n32768, 2232387, 68\n"),
   ("f64/constraints_div (T_RC = 12).csv",
    "#Operations, #Constraints (Total), #Constraints (Amortized)\n1, 4243, 4243\n2, 4323, 2161\n4, 4483, 1120\n8, 4803, 600\n16, 5443, 340\n32, 6723, 210\n64, 9283, 145\n128, 14403, 112\n256, 24643, 96\n512, 45123, 88\n1024, 86083, 84\n2048, 168003, 82\n4096, 331843, 81\n8192, 659523, 80\n16384, 1314883, 80\n32768, 2625603, 80\n"),
   ("f64/constraints_sqrt (T_RC = 12).csv",
    "#Operations, #Constraints (Total), #Constraints (Amortized)\n1, 4214, 4214\n2, 4265, 2132\n4, 4367, 1091\n8, 4571, 571\n16, 4979, 311\n32, 5795, 181\n64, 7427, 116\n128, 10691, 83\n256, 17219, 67\n512, 30275, 59\n1024, 56387, 55\n2048, 108611, 53\n4096, 213059, 52\n8192, 421955, 51\n16384, 839747, 51\n32768, 1675331, 51\n"),
   ("f64/constraints_cmp (T_RC = 12).csv",
    "#Operations, #Constraints (Total), #Constraints (Amortized)\n1, 4196, 4196\n2, 4229, 2114\n4, 4295, 1073\n8, 4427, 553\n16, 4691, 293\n32, 5219, 163\n64, 6275, 98\n128, 8387, 65\n256, 12611, 49\n512, 21059, 41\n1024, 37955, 37\n2048, 71747, 35\n4096, 139331, 34\n8192, 274499, 33\n16384, 544835, 33\n32768, 1085507, 33\n"),
   ("f64/constraints_init (T_RC = 16).csv",
    "#Operations, #Constraints (Total), #Constraints (Amortized)\n1, 65636, 65636\n2, 65669, 32834\n4, 65735, 16433\n8, 65867, 8233\n16, 66131, 4133\n32, 66659, 2083\n64, 67715, 1058\n128, 69827, 545\n256, 74051, 289\n512, 82499, 161\n1024, 99395, 97\n2048, 133187, 65\n4096, 200771, 49\n8192, 335939, 41\n16384, 606275, 37\n32768, 1146947, 35\n"),
   ("f64/constraints_add (T_RC = 16).csv",
    "#Operations, #Constraints (Total), #Constraints (Amortized)\n1, 65685, 65685\n2, 65767, 32883\n4, 65931, 16482\n8, 66259, 8282\n16, 66915, 4182\n32, 68227, 2132\n64, 70851, 1107\n128, 76099, 594\n256, 86595, 338\n512, 107587, 210\n1024, 149571, 146\n2048, 233539, 114\n4096, 401475, 98\n8192, 737347, 90\n16384, 1409091, 86\n32768, 2752579, 84\n"),
   ("f64/constraints_sub (T_RC = 16).csv",
    "#Operations, #Constraints (Total), #Constraints (Amortized)\n1, 65685, 65685\n2, 65767, 32883\n4, 65931, 16482\n8, 66259, 8282\n16, 66915, 4182\n32, 68227, 2132\n64, 70851, 1107\n128, 76099, 594\n256, 86595, 338\n512, 107587, 210\n1024, 149571, 146\n2048, 233539, 114\n4096, 401475, 98\n8192, 737347, 90\n16384, 1409091, 86\n32768, 2752579, 84\n"),
   ("f64/constraints_mul (T_RC = 16).csv",
    "#Operations, #Constraints (Total), #Constraints (Amortized)\n1, 65664, 65664\n2, 65725, 32862\n4, 65847, 16461\n8, 66091, 8261\n16, 66579, 4161\n32, 67555, 2111\n64, 69507, 1086\n128, 73411, 573\n256, 81219, 317\n512, 96835, 189\n1024, 128067, 125\n2048, 190531, 93\n4096, 315459, 77\n8192, 565315, 69\n16384, 1065027, 65\n32768, 2064451, 63\n"),
   ("f64/constraints_div (T_RC = 16).csv",
    "#Operations, #Constraints (Total), #Constraints (Amortized)\n1, 65676, 65676\n2, 65749, 32874\n4, 65895, 16473\n8, 66187, 8273\n16, 66771, 4173\n32, 67939, 2123\n64, 70275, 1098\n128, 74947, 585\n256, 84291, 329\n512, 102979, 201\n1024, 140355, 137\n2048, 215107, 105\n4096, 364611, 89\n8192, 663619, 81\n16384, 1261635, 77\n32768, 2457667, 75\n"),
   ("f64/constraints_sqrt (T_RC = 16).csv",
    "#Operations, #Constraints (Total), #Constraints (Amortized)\n1, 65649, 65649\n2, 65695, 32847\n4, 65787, 16446\n8, 65971, 8246\n16, 66339, 4146\n32, 67075, 2096\n64, 68547, 1071\n128, 71491, 558\n256, 77379, 302\n512, 89155, 174\n1024, 112707, 110\n2048, 159811, 78\n4096, 254019, 62\n8192, 442435, 54\n16384, 819267, 50\n32768, 1572931, 48\n"),
   ("f64/constraints_cmp (T_RC = 16).csv",
    "#Operations, #Constraints (Total), #Constraints (Amortized)\n1, 65635, 65635\n2, 65667, 32833\n4, 65731, 16432\n8, 65859, 8232\n16, 66115, 4132\n32, 66627, 2082\n64, 67651, 1057\n128, 69699, 544\n256, 73795, 288\n512, 81987, 160\n1024, 98371, 96\n2048, 131139, 64\n4096, 196675, 48\n8192, 327747, 40\n16384, 589891, 36\n32768, 1114179, 34\n"),
   ("constraints.csv",
    "Type, T_RC, Init, Add, Sub, Mul, Div, Sqrt, Cmp\nF32, 8, 13 + 17 + 291/n, 42 + 43 + 291/n, 42 + 43 + 291/n, 31 + 33 + 291/n, 38 + 38 + 291/n, 23 + 22 + 291/n, 26 + 7 + 291/n\nF32, 12, 13 + 15 + 4131/n, 42 + 32 + 4131/n, 42 + 32 + 4131/n, 31 + 21 + 4131/n, 38 + 26 + 4131/n, 23 + 18 + 4131/n, 26 + 4 + 4131/n\nF32, 16, 13 + 14 + 65571/n, 42 + 27 + 65571/n, 42 + 27 + 65571/n, 31 + 18 + 65571/n, 38 + 23 + 65571/n, 23 + 15 + 65571/n, 26 + 4 + 65571/n\nF64, 8, 13 + 32 + 323/n, 42 + 71 + 323/n, 42 + 71 + 323/n, 31 + 57 + 323/n, 38 + 60 + 323/n, 23 + 38 + 323/n, 26 + 11 + 323/n\nF64, 12, 13 + 24 + 4163/n, 42 + 50 + 4163/n, 42 + 50 + 4163/n, 31 + 37 + 4163/n, 38 + 42 + 4163/n, 23 + 28 + 4163/n, 26 + 7 + 4163/n\nF64, 16, 13 + 20 + 65603/n, 42 + 40 + 65603/n, 42 + 40 + 65603/n, 31 + 30 + 65603/n, 38 + 35 + 65603/n, 23 + 23 + 65603/n, 26 + 6 + 65603/n\n")]

end ZkLoc.Published
