import Verif.Model.UniGen

/-!
Written by tools/gen_unidata.py from /repo/unicode/UnicodeData.txt, CompositionExclusions.txt and
DerivedNormalizationProps.txt. Search trees; what they contain are the lines of the files.
-/

namespace Verif.Unidata
open Verif.UniGen

def unicodeData0 : RTree (Nat × List Nat) := (.node (.node (.node (.node (.node (.node (.node (.node (.node .leaf 192 192 (0, [65, 768]) .leaf) 193 193 (0, [65, 769]) .leaf) 194 194 (0, [65, 770]) (.node (.node .leaf 195 195 (0, [65, 771]) .leaf) 196 196 (0, [65, 776]) .leaf)) 197 197 (0, [65, 778]) (.node (.node (.node .leaf 199 199 (0, [67, 807]) .leaf) 200 200 (0, [69, 768]) .leaf) 201 201 (0, [69, 769]) (.node (.node .leaf 202 202 (0, [69, 770]) .leaf) 203 203 (0, [69, 776]) .leaf))) 204 204 (0, [73, 768]) (.node (.node (.node (.node .leaf 205 205 (0, [73, 769]) .leaf) 206 206 (0, [73, 770]) .leaf) 207 207 (0, [73, 776]) (.node (.node .leaf 209 209 (0, [78, 771]) .leaf) 210 210 (0, [79, 768]) .leaf)) 211 211 (0, [79, 769]) (.node (.node (.node .leaf 212 212 (0, [79, 770]) .leaf) 213 213 (0, [79, 771]) .leaf) 214 214 (0, [79, 776]) (.node .leaf 217 217 (0, [85, 768]) .leaf)))) 218 218 (0, [85, 769]) (.node (.node (.node (.node (.node .leaf 219 219 (0, [85, 770]) .leaf) 220 220 (0, [85, 776]) .leaf) 221 221 (0, [89, 769]) (.node (.node .leaf 224 224 (0, [97, 768]) .leaf) 225 225 (0, [97, 769]) .leaf)) 226 226 (0, [97, 770]) (.node (.node (.node .leaf 227 227 (0, [97, 771]) .leaf) 228 228 (0, [97, 776]) .leaf) 229 229 (0, [97, 778]) (.node (.node .leaf 231 231 (0, [99, 807]) .leaf) 232 232 (0, [101, 768]) .leaf))) 233 233 (0, [101, 769]) (.node (.node (.node (.node .leaf 234 234 (0, [101, 770]) .leaf) 235 235 (0, [101, 776]) .leaf) 236 236 (0, [105, 768]) (.node (.node .leaf 237 237 (0, [105, 769]) .leaf) 238 238 (0, [105, 770]) .leaf)) 239 239 (0, [105, 776]) (.node (.node (.node .leaf 241 241 (0, [110, 771]) .leaf) 242 242 (0, [111, 768]) .leaf) 243 243 (0, [111, 769]) (.node .leaf 244 244 (0, [111, 770]) .leaf))))) 245 245 (0, [111, 771]) (.node (.node (.node (.node (.node (.node .leaf 246 246 (0, [111, 776]) .leaf) 249 249 (0, [117, 768]) .leaf) 250 250 (0, [117, 769]) (.node (.node .leaf 251 251 (0, [117, 770]) .leaf) 252 252 (0, [117, 776]) .leaf)) 253 253 (0, [121, 769]) (.node (.node (.node .leaf 255 255 (0, [121, 776]) .leaf) 256 256 (0, [65, 772]) .leaf) 257 257 (0, [97, 772]) (.node (.node .leaf 258 258 (0, [65, 774]) .leaf) 259 259 (0, [97, 774]) .leaf))) 260 260 (0, [65, 808]) (.node (.node (.node (.node .leaf 261 261 (0, [97, 808]) .leaf) 262 262 (0, [67, 769]) .leaf) 263 263 (0, [99, 769]) (.node (.node .leaf 264 264 (0, [67, 770]) .leaf) 265 265 (0, [99, 770]) .leaf)) 266 266 (0, [67, 775]) (.node (.node (.node .leaf 267 267 (0, [99, 775]) .leaf) 268 268 (0, [67, 780]) .leaf) 269 269 (0, [99, 780]) (.node .leaf 270 270 (0, [68, 780]) .leaf)))) 271 271 (0, [100, 780]) (.node (.node (.node (.node (.node .leaf 274 274 (0, [69, 772]) .leaf) 275 275 (0, [101, 772]) .leaf) 276 276 (0, [69, 774]) (.node (.node .leaf 277 277 (0, [101, 774]) .leaf) 278 278 (0, [69, 775]) .leaf)) 279 279 (0, [101, 775]) (.node (.node (.node .leaf 280 280 (0, [69, 808]) .leaf) 281 281 (0, [101, 808]) .leaf) 282 282 (0, [69, 780]) (.node (.node .leaf 283 283 (0, [101, 780]) .leaf) 284 284 (0, [71, 770]) .leaf))) 285 285 (0, [103, 770]) (.node (.node (.node (.node .leaf 286 286 (0, [71, 774]) .leaf) 287 287 (0, [103, 774]) .leaf) 288 288 (0, [71, 775]) (.node (.node .leaf 289 289 (0, [103, 775]) .leaf) 290 290 (0, [71, 807]) .leaf)) 291 291 (0, [103, 807]) (.node (.node (.node .leaf 292 292 (0, [72, 770]) .leaf) 293 293 (0, [104, 770]) .leaf) 296 296 (0, [73, 771]) (.node .leaf 297 297 (0, [105, 771]) .leaf)))))) 298 298 (0, [73, 772]) (.node (.node (.node (.node (.node (.node (.node .leaf 299 299 (0, [105, 772]) .leaf) 300 300 (0, [73, 774]) .leaf) 301 301 (0, [105, 774]) (.node (.node .leaf 302 302 (0, [73, 808]) .leaf) 303 303 (0, [105, 808]) .leaf)) 304 304 (0, [73, 775]) (.node (.node (.node .leaf 308 308 (0, [74, 770]) .leaf) 309 309 (0, [106, 770]) .leaf) 310 310 (0, [75, 807]) (.node (.node .leaf 311 311 (0, [107, 807]) .leaf) 313 313 (0, [76, 769]) .leaf))) 314 314 (0, [108, 769]) (.node (.node (.node (.node .leaf 315 315 (0, [76, 807]) .leaf) 316 316 (0, [108, 807]) .leaf) 317 317 (0, [76, 780]) (.node (.node .leaf 318 318 (0, [108, 780]) .leaf) 323 323 (0, [78, 769]) .leaf)) 324 324 (0, [110, 769]) (.node (.node (.node .leaf 325 325 (0, [78, 807]) .leaf) 326 326 (0, [110, 807]) .leaf) 327 327 (0, [78, 780]) (.node .leaf 328 328 (0, [110, 780]) .leaf)))) 332 332 (0, [79, 772]) (.node (.node (.node (.node (.node .leaf 333 333 (0, [111, 772]) .leaf) 334 334 (0, [79, 774]) .leaf) 335 335 (0, [111, 774]) (.node (.node .leaf 336 336 (0, [79, 779]) .leaf) 337 337 (0, [111, 779]) .leaf)) 340 340 (0, [82, 769]) (.node (.node (.node .leaf 341 341 (0, [114, 769]) .leaf) 342 342 (0, [82, 807]) .leaf) 343 343 (0, [114, 807]) (.node (.node .leaf 344 344 (0, [82, 780]) .leaf) 345 345 (0, [114, 780]) .leaf))) 346 346 (0, [83, 769]) (.node (.node (.node (.node .leaf 347 347 (0, [115, 769]) .leaf) 348 348 (0, [83, 770]) .leaf) 349 349 (0, [115, 770]) (.node (.node .leaf 350 350 (0, [83, 807]) .leaf) 351 351 (0, [115, 807]) .leaf)) 352 352 (0, [83, 780]) (.node (.node (.node .leaf 353 353 (0, [115, 780]) .leaf) 354 354 (0, [84, 807]) .leaf) 355 355 (0, [116, 807]) (.node .leaf 356 356 (0, [84, 780]) .leaf))))) 357 357 (0, [116, 780]) (.node (.node (.node (.node (.node (.node .leaf 360 360 (0, [85, 771]) .leaf) 361 361 (0, [117, 771]) .leaf) 362 362 (0, [85, 772]) (.node (.node .leaf 363 363 (0, [117, 772]) .leaf) 364 364 (0, [85, 774]) .leaf)) 365 365 (0, [117, 774]) (.node (.node (.node .leaf 366 366 (0, [85, 778]) .leaf) 367 367 (0, [117, 778]) .leaf) 368 368 (0, [85, 779]) (.node (.node .leaf 369 369 (0, [117, 779]) .leaf) 370 370 (0, [85, 808]) .leaf))) 371 371 (0, [117, 808]) (.node (.node (.node (.node .leaf 372 372 (0, [87, 770]) .leaf) 373 373 (0, [119, 770]) .leaf) 374 374 (0, [89, 770]) (.node (.node .leaf 375 375 (0, [121, 770]) .leaf) 376 376 (0, [89, 776]) .leaf)) 377 377 (0, [90, 769]) (.node (.node (.node .leaf 378 378 (0, [122, 769]) .leaf) 379 379 (0, [90, 775]) .leaf) 380 380 (0, [122, 775]) (.node .leaf 381 381 (0, [90, 780]) .leaf)))) 382 382 (0, [122, 780]) (.node (.node (.node (.node (.node .leaf 416 416 (0, [79, 795]) .leaf) 417 417 (0, [111, 795]) .leaf) 431 431 (0, [85, 795]) (.node (.node .leaf 432 432 (0, [117, 795]) .leaf) 461 461 (0, [65, 780]) .leaf)) 462 462 (0, [97, 780]) (.node (.node (.node .leaf 463 463 (0, [73, 780]) .leaf) 464 464 (0, [105, 780]) .leaf) 465 465 (0, [79, 780]) (.node (.node .leaf 466 466 (0, [111, 780]) .leaf) 467 467 (0, [85, 780]) .leaf))) 468 468 (0, [117, 780]) (.node (.node (.node (.node .leaf 469 469 (0, [220, 772]) .leaf) 470 470 (0, [252, 772]) .leaf) 471 471 (0, [220, 769]) (.node (.node .leaf 472 472 (0, [252, 769]) .leaf) 473 473 (0, [220, 780]) .leaf)) 474 474 (0, [252, 780]) (.node (.node (.node .leaf 475 475 (0, [220, 768]) .leaf) 476 476 (0, [252, 768]) .leaf) 478 478 (0, [196, 772]) (.node .leaf 479 479 (0, [228, 772]) .leaf))))))) 480 480 (0, [550, 772]) (.node (.node (.node (.node (.node (.node (.node (.node .leaf 481 481 (0, [551, 772]) .leaf) 482 482 (0, [198, 772]) .leaf) 483 483 (0, [230, 772]) (.node (.node .leaf 486 486 (0, [71, 780]) .leaf) 487 487 (0, [103, 780]) .leaf)) 488 488 (0, [75, 780]) (.node (.node (.node .leaf 489 489 (0, [107, 780]) .leaf) 490 490 (0, [79, 808]) .leaf) 491 491 (0, [111, 808]) (.node (.node .leaf 492 492 (0, [490, 772]) .leaf) 493 493 (0, [491, 772]) .leaf))) 494 494 (0, [439, 780]) (.node (.node (.node (.node .leaf 495 495 (0, [658, 780]) .leaf) 496 496 (0, [106, 780]) .leaf) 500 500 (0, [71, 769]) (.node (.node .leaf 501 501 (0, [103, 769]) .leaf) 504 504 (0, [78, 768]) .leaf)) 505 505 (0, [110, 768]) (.node (.node (.node .leaf 506 506 (0, [197, 769]) .leaf) 507 507 (0, [229, 769]) .leaf) 508 508 (0, [198, 769]) (.node .leaf 509 509 (0, [230, 769]) .leaf)))) 510 510 (0, [216, 769]) (.node (.node (.node (.node (.node .leaf 511 511 (0, [248, 769]) .leaf) 512 512 (0, [65, 783]) .leaf) 513 513 (0, [97, 783]) (.node (.node .leaf 514 514 (0, [65, 785]) .leaf) 515 515 (0, [97, 785]) .leaf)) 516 516 (0, [69, 783]) (.node (.node (.node .leaf 517 517 (0, [101, 783]) .leaf) 518 518 (0, [69, 785]) .leaf) 519 519 (0, [101, 785]) (.node (.node .leaf 520 520 (0, [73, 783]) .leaf) 521 521 (0, [105, 783]) .leaf))) 522 522 (0, [73, 785]) (.node (.node (.node (.node .leaf 523 523 (0, [105, 785]) .leaf) 524 524 (0, [79, 783]) .leaf) 525 525 (0, [111, 783]) (.node (.node .leaf 526 526 (0, [79, 785]) .leaf) 527 527 (0, [111, 785]) .leaf)) 528 528 (0, [82, 783]) (.node (.node (.node .leaf 529 529 (0, [114, 783]) .leaf) 530 530 (0, [82, 785]) .leaf) 531 531 (0, [114, 785]) (.node .leaf 532 532 (0, [85, 783]) .leaf))))) 533 533 (0, [117, 783]) (.node (.node (.node (.node (.node (.node .leaf 534 534 (0, [85, 785]) .leaf) 535 535 (0, [117, 785]) .leaf) 536 536 (0, [83, 806]) (.node (.node .leaf 537 537 (0, [115, 806]) .leaf) 538 538 (0, [84, 806]) .leaf)) 539 539 (0, [116, 806]) (.node (.node (.node .leaf 542 542 (0, [72, 780]) .leaf) 543 543 (0, [104, 780]) .leaf) 550 550 (0, [65, 775]) (.node (.node .leaf 551 551 (0, [97, 775]) .leaf) 552 552 (0, [69, 807]) .leaf))) 553 553 (0, [101, 807]) (.node (.node (.node (.node .leaf 554 554 (0, [214, 772]) .leaf) 555 555 (0, [246, 772]) .leaf) 556 556 (0, [213, 772]) (.node (.node .leaf 557 557 (0, [245, 772]) .leaf) 558 558 (0, [79, 775]) .leaf)) 559 559 (0, [111, 775]) (.node (.node (.node .leaf 560 560 (0, [558, 772]) .leaf) 561 561 (0, [559, 772]) .leaf) 562 562 (0, [89, 772]) (.node .leaf 563 563 (0, [121, 772]) .leaf)))) 768 768 (230, []) (.node (.node (.node (.node (.node .leaf 769 769 (230, []) .leaf) 770 770 (230, []) .leaf) 771 771 (230, []) (.node (.node .leaf 772 772 (230, []) .leaf) 773 773 (230, []) .leaf)) 774 774 (230, []) (.node (.node (.node .leaf 775 775 (230, []) .leaf) 776 776 (230, []) .leaf) 777 777 (230, []) (.node (.node .leaf 778 778 (230, []) .leaf) 779 779 (230, []) .leaf))) 780 780 (230, []) (.node (.node (.node (.node .leaf 781 781 (230, []) .leaf) 782 782 (230, []) .leaf) 783 783 (230, []) (.node (.node .leaf 784 784 (230, []) .leaf) 785 785 (230, []) .leaf)) 786 786 (230, []) (.node (.node (.node .leaf 787 787 (230, []) .leaf) 788 788 (230, []) .leaf) 789 789 (232, []) (.node .leaf 790 790 (220, []) .leaf)))))) 791 791 (220, []) (.node (.node (.node (.node (.node (.node (.node .leaf 792 792 (220, []) .leaf) 793 793 (220, []) .leaf) 794 794 (232, []) (.node (.node .leaf 795 795 (216, []) .leaf) 796 796 (220, []) .leaf)) 797 797 (220, []) (.node (.node (.node .leaf 798 798 (220, []) .leaf) 799 799 (220, []) .leaf) 800 800 (220, []) (.node (.node .leaf 801 801 (202, []) .leaf) 802 802 (202, []) .leaf))) 803 803 (220, []) (.node (.node (.node (.node .leaf 804 804 (220, []) .leaf) 805 805 (220, []) .leaf) 806 806 (220, []) (.node (.node .leaf 807 807 (202, []) .leaf) 808 808 (202, []) .leaf)) 809 809 (220, []) (.node (.node (.node .leaf 810 810 (220, []) .leaf) 811 811 (220, []) .leaf) 812 812 (220, []) (.node .leaf 813 813 (220, []) .leaf)))) 814 814 (220, []) (.node (.node (.node (.node (.node .leaf 815 815 (220, []) .leaf) 816 816 (220, []) .leaf) 817 817 (220, []) (.node (.node .leaf 818 818 (220, []) .leaf) 819 819 (220, []) .leaf)) 820 820 (1, []) (.node (.node (.node .leaf 821 821 (1, []) .leaf) 822 822 (1, []) .leaf) 823 823 (1, []) (.node (.node .leaf 824 824 (1, []) .leaf) 825 825 (220, []) .leaf))) 826 826 (220, []) (.node (.node (.node (.node .leaf 827 827 (220, []) .leaf) 828 828 (220, []) .leaf) 829 829 (230, []) (.node (.node .leaf 830 830 (230, []) .leaf) 831 831 (230, []) .leaf)) 832 832 (230, [768]) (.node (.node (.node .leaf 833 833 (230, [769]) .leaf) 834 834 (230, []) .leaf) 835 835 (230, [787]) (.node .leaf 836 836 (230, [776, 769]) .leaf))))) 837 837 (240, []) (.node (.node (.node (.node (.node (.node .leaf 838 838 (230, []) .leaf) 839 839 (220, []) .leaf) 840 840 (220, []) (.node (.node .leaf 841 841 (220, []) .leaf) 842 842 (230, []) .leaf)) 843 843 (230, []) (.node (.node (.node .leaf 844 844 (230, []) .leaf) 845 845 (220, []) .leaf) 846 846 (220, []) (.node (.node .leaf 848 848 (230, []) .leaf) 849 849 (230, []) .leaf))) 850 850 (230, []) (.node (.node (.node (.node .leaf 851 851 (220, []) .leaf) 852 852 (220, []) .leaf) 853 853 (220, []) (.node (.node .leaf 854 854 (220, []) .leaf) 855 855 (230, []) .leaf)) 856 856 (232, []) (.node (.node (.node .leaf 857 857 (220, []) .leaf) 858 858 (220, []) .leaf) 859 859 (230, []) (.node .leaf 860 860 (233, []) .leaf)))) 861 861 (234, []) (.node (.node (.node (.node (.node .leaf 862 862 (234, []) .leaf) 863 863 (233, []) .leaf) 864 864 (234, []) (.node (.node .leaf 865 865 (234, []) .leaf) 866 866 (233, []) .leaf)) 867 867 (230, []) (.node (.node (.node .leaf 868 868 (230, []) .leaf) 869 869 (230, []) .leaf) 870 870 (230, []) (.node .leaf 871 871 (230, []) .leaf))) 872 872 (230, []) (.node (.node (.node (.node .leaf 873 873 (230, []) .leaf) 874 874 (230, []) .leaf) 875 875 (230, []) (.node (.node .leaf 876 876 (230, []) .leaf) 877 877 (230, []) .leaf)) 878 878 (230, []) (.node (.node (.node .leaf 879 879 (230, []) .leaf) 884 884 (0, [697]) .leaf) 894 894 (0, [59]) (.node .leaf 901 901 (0, [168, 769]) .leaf))))))))

def unicodeData1 : RTree (Nat × List Nat) := (.node (.node (.node (.node (.node (.node (.node (.node (.node .leaf 903 903 (0, [183]) .leaf) 904 904 (0, [917, 769]) .leaf) 905 905 (0, [919, 769]) (.node (.node .leaf 906 906 (0, [921, 769]) .leaf) 908 908 (0, [927, 769]) .leaf)) 910 910 (0, [933, 769]) (.node (.node (.node .leaf 911 911 (0, [937, 769]) .leaf) 912 912 (0, [970, 769]) .leaf) 938 938 (0, [921, 776]) (.node (.node .leaf 939 939 (0, [933, 776]) .leaf) 940 940 (0, [945, 769]) .leaf))) 941 941 (0, [949, 769]) (.node (.node (.node (.node .leaf 942 942 (0, [951, 769]) .leaf) 943 943 (0, [953, 769]) .leaf) 944 944 (0, [971, 769]) (.node (.node .leaf 970 970 (0, [953, 776]) .leaf) 971 971 (0, [965, 776]) .leaf)) 972 972 (0, [959, 769]) (.node (.node (.node .leaf 973 973 (0, [965, 769]) .leaf) 974 974 (0, [969, 769]) .leaf) 979 979 (0, [978, 769]) (.node .leaf 980 980 (0, [978, 776]) .leaf)))) 1024 1024 (0, [1045, 768]) (.node (.node (.node (.node (.node .leaf 1025 1025 (0, [1045, 776]) .leaf) 1027 1027 (0, [1043, 769]) .leaf) 1031 1031 (0, [1030, 776]) (.node (.node .leaf 1036 1036 (0, [1050, 769]) .leaf) 1037 1037 (0, [1048, 768]) .leaf)) 1038 1038 (0, [1059, 774]) (.node (.node (.node .leaf 1049 1049 (0, [1048, 774]) .leaf) 1081 1081 (0, [1080, 774]) .leaf) 1104 1104 (0, [1077, 768]) (.node (.node .leaf 1105 1105 (0, [1077, 776]) .leaf) 1107 1107 (0, [1075, 769]) .leaf))) 1111 1111 (0, [1110, 776]) (.node (.node (.node (.node .leaf 1116 1116 (0, [1082, 769]) .leaf) 1117 1117 (0, [1080, 768]) .leaf) 1118 1118 (0, [1091, 774]) (.node (.node .leaf 1142 1142 (0, [1140, 783]) .leaf) 1143 1143 (0, [1141, 783]) .leaf)) 1155 1155 (230, []) (.node (.node (.node .leaf 1156 1156 (230, []) .leaf) 1157 1157 (230, []) .leaf) 1158 1158 (230, []) (.node .leaf 1159 1159 (230, []) .leaf))))) 1217 1217 (0, [1046, 774]) (.node (.node (.node (.node (.node (.node .leaf 1218 1218 (0, [1078, 774]) .leaf) 1232 1232 (0, [1040, 774]) .leaf) 1233 1233 (0, [1072, 774]) (.node (.node .leaf 1234 1234 (0, [1040, 776]) .leaf) 1235 1235 (0, [1072, 776]) .leaf)) 1238 1238 (0, [1045, 774]) (.node (.node (.node .leaf 1239 1239 (0, [1077, 774]) .leaf) 1242 1242 (0, [1240, 776]) .leaf) 1243 1243 (0, [1241, 776]) (.node (.node .leaf 1244 1244 (0, [1046, 776]) .leaf) 1245 1245 (0, [1078, 776]) .leaf))) 1246 1246 (0, [1047, 776]) (.node (.node (.node (.node .leaf 1247 1247 (0, [1079, 776]) .leaf) 1250 1250 (0, [1048, 772]) .leaf) 1251 1251 (0, [1080, 772]) (.node (.node .leaf 1252 1252 (0, [1048, 776]) .leaf) 1253 1253 (0, [1080, 776]) .leaf)) 1254 1254 (0, [1054, 776]) (.node (.node (.node .leaf 1255 1255 (0, [1086, 776]) .leaf) 1258 1258 (0, [1256, 776]) .leaf) 1259 1259 (0, [1257, 776]) (.node .leaf 1260 1260 (0, [1069, 776]) .leaf)))) 1261 1261 (0, [1101, 776]) (.node (.node (.node (.node (.node .leaf 1262 1262 (0, [1059, 772]) .leaf) 1263 1263 (0, [1091, 772]) .leaf) 1264 1264 (0, [1059, 776]) (.node (.node .leaf 1265 1265 (0, [1091, 776]) .leaf) 1266 1266 (0, [1059, 779]) .leaf)) 1267 1267 (0, [1091, 779]) (.node (.node (.node .leaf 1268 1268 (0, [1063, 776]) .leaf) 1269 1269 (0, [1095, 776]) .leaf) 1272 1272 (0, [1067, 776]) (.node (.node .leaf 1273 1273 (0, [1099, 776]) .leaf) 1425 1425 (220, []) .leaf))) 1426 1426 (230, []) (.node (.node (.node (.node .leaf 1427 1427 (230, []) .leaf) 1428 1428 (230, []) .leaf) 1429 1429 (230, []) (.node (.node .leaf 1430 1430 (220, []) .leaf) 1431 1431 (230, []) .leaf)) 1432 1432 (230, []) (.node (.node (.node .leaf 1433 1433 (230, []) .leaf) 1434 1434 (222, []) .leaf) 1435 1435 (220, []) (.node .leaf 1436 1436 (230, []) .leaf)))))) 1437 1437 (230, []) (.node (.node (.node (.node (.node (.node (.node .leaf 1438 1438 (230, []) .leaf) 1439 1439 (230, []) .leaf) 1440 1440 (230, []) (.node (.node .leaf 1441 1441 (230, []) .leaf) 1442 1442 (220, []) .leaf)) 1443 1443 (220, []) (.node (.node (.node .leaf 1444 1444 (220, []) .leaf) 1445 1445 (220, []) .leaf) 1446 1446 (220, []) (.node (.node .leaf 1447 1447 (220, []) .leaf) 1448 1448 (230, []) .leaf))) 1449 1449 (230, []) (.node (.node (.node (.node .leaf 1450 1450 (220, []) .leaf) 1451 1451 (230, []) .leaf) 1452 1452 (230, []) (.node (.node .leaf 1453 1453 (222, []) .leaf) 1454 1454 (228, []) .leaf)) 1455 1455 (230, []) (.node (.node (.node .leaf 1456 1456 (10, []) .leaf) 1457 1457 (11, []) .leaf) 1458 1458 (12, []) (.node .leaf 1459 1459 (13, []) .leaf)))) 1460 1460 (14, []) (.node (.node (.node (.node (.node .leaf 1461 1461 (15, []) .leaf) 1462 1462 (16, []) .leaf) 1463 1463 (17, []) (.node (.node .leaf 1464 1464 (18, []) .leaf) 1465 1465 (19, []) .leaf)) 1466 1466 (19, []) (.node (.node (.node .leaf 1467 1467 (20, []) .leaf) 1468 1468 (21, []) .leaf) 1469 1469 (22, []) (.node (.node .leaf 1471 1471 (23, []) .leaf) 1473 1473 (24, []) .leaf))) 1474 1474 (25, []) (.node (.node (.node (.node .leaf 1476 1476 (230, []) .leaf) 1477 1477 (220, []) .leaf) 1479 1479 (18, []) (.node (.node .leaf 1552 1552 (230, []) .leaf) 1553 1553 (230, []) .leaf)) 1554 1554 (230, []) (.node (.node (.node .leaf 1555 1555 (230, []) .leaf) 1556 1556 (230, []) .leaf) 1557 1557 (230, []) (.node .leaf 1558 1558 (230, []) .leaf))))) 1559 1559 (230, []) (.node (.node (.node (.node (.node (.node .leaf 1560 1560 (30, []) .leaf) 1561 1561 (31, []) .leaf) 1562 1562 (32, []) (.node (.node .leaf 1570 1570 (0, [1575, 1619]) .leaf) 1571 1571 (0, [1575, 1620]) .leaf)) 1572 1572 (0, [1608, 1620]) (.node (.node (.node .leaf 1573 1573 (0, [1575, 1621]) .leaf) 1574 1574 (0, [1610, 1620]) .leaf) 1611 1611 (27, []) (.node (.node .leaf 1612 1612 (28, []) .leaf) 1613 1613 (29, []) .leaf))) 1614 1614 (30, []) (.node (.node (.node (.node .leaf 1615 1615 (31, []) .leaf) 1616 1616 (32, []) .leaf) 1617 1617 (33, []) (.node (.node .leaf 1618 1618 (34, []) .leaf) 1619 1619 (230, []) .leaf)) 1620 1620 (230, []) (.node (.node (.node .leaf 1621 1621 (220, []) .leaf) 1622 1622 (220, []) .leaf) 1623 1623 (230, []) (.node .leaf 1624 1624 (230, []) .leaf)))) 1625 1625 (230, []) (.node (.node (.node (.node (.node .leaf 1626 1626 (230, []) .leaf) 1627 1627 (230, []) .leaf) 1628 1628 (220, []) (.node (.node .leaf 1629 1629 (230, []) .leaf) 1630 1630 (230, []) .leaf)) 1631 1631 (220, []) (.node (.node (.node .leaf 1648 1648 (35, []) .leaf) 1728 1728 (0, [1749, 1620]) .leaf) 1730 1730 (0, [1729, 1620]) (.node .leaf 1747 1747 (0, [1746, 1620]) .leaf))) 1750 1750 (230, []) (.node (.node (.node (.node .leaf 1751 1751 (230, []) .leaf) 1752 1752 (230, []) .leaf) 1753 1753 (230, []) (.node (.node .leaf 1754 1754 (230, []) .leaf) 1755 1755 (230, []) .leaf)) 1756 1756 (230, []) (.node (.node (.node .leaf 1759 1759 (230, []) .leaf) 1760 1760 (230, []) .leaf) 1761 1761 (230, []) (.node .leaf 1762 1762 (230, []) .leaf))))))) 1763 1763 (220, []) (.node (.node (.node (.node (.node (.node (.node (.node .leaf 1764 1764 (230, []) .leaf) 1767 1767 (230, []) .leaf) 1768 1768 (230, []) (.node (.node .leaf 1770 1770 (220, []) .leaf) 1771 1771 (230, []) .leaf)) 1772 1772 (230, []) (.node (.node (.node .leaf 1773 1773 (220, []) .leaf) 1809 1809 (36, []) .leaf) 1840 1840 (230, []) (.node (.node .leaf 1841 1841 (220, []) .leaf) 1842 1842 (230, []) .leaf))) 1843 1843 (230, []) (.node (.node (.node (.node .leaf 1844 1844 (220, []) .leaf) 1845 1845 (230, []) .leaf) 1846 1846 (230, []) (.node (.node .leaf 1847 1847 (220, []) .leaf) 1848 1848 (220, []) .leaf)) 1849 1849 (220, []) (.node (.node (.node .leaf 1850 1850 (230, []) .leaf) 1851 1851 (220, []) .leaf) 1852 1852 (220, []) (.node .leaf 1853 1853 (230, []) .leaf)))) 1854 1854 (220, []) (.node (.node (.node (.node (.node .leaf 1855 1855 (230, []) .leaf) 1856 1856 (230, []) .leaf) 1857 1857 (230, []) (.node (.node .leaf 1858 1858 (220, []) .leaf) 1859 1859 (230, []) .leaf)) 1860 1860 (220, []) (.node (.node (.node .leaf 1861 1861 (230, []) .leaf) 1862 1862 (220, []) .leaf) 1863 1863 (230, []) (.node (.node .leaf 1864 1864 (220, []) .leaf) 1865 1865 (230, []) .leaf))) 1866 1866 (230, []) (.node (.node (.node (.node .leaf 2027 2027 (230, []) .leaf) 2028 2028 (230, []) .leaf) 2029 2029 (230, []) (.node (.node .leaf 2030 2030 (230, []) .leaf) 2031 2031 (230, []) .leaf)) 2032 2032 (230, []) (.node (.node (.node .leaf 2033 2033 (230, []) .leaf) 2034 2034 (220, []) .leaf) 2035 2035 (230, []) (.node .leaf 2045 2045 (220, []) .leaf))))) 2070 2070 (230, []) (.node (.node (.node (.node (.node (.node .leaf 2071 2071 (230, []) .leaf) 2072 2072 (230, []) .leaf) 2073 2073 (230, []) (.node (.node .leaf 2075 2075 (230, []) .leaf) 2076 2076 (230, []) .leaf)) 2077 2077 (230, []) (.node (.node (.node .leaf 2078 2078 (230, []) .leaf) 2079 2079 (230, []) .leaf) 2080 2080 (230, []) (.node (.node .leaf 2081 2081 (230, []) .leaf) 2082 2082 (230, []) .leaf))) 2083 2083 (230, []) (.node (.node (.node (.node .leaf 2085 2085 (230, []) .leaf) 2086 2086 (230, []) .leaf) 2087 2087 (230, []) (.node (.node .leaf 2089 2089 (230, []) .leaf) 2090 2090 (230, []) .leaf)) 2091 2091 (230, []) (.node (.node (.node .leaf 2092 2092 (230, []) .leaf) 2093 2093 (230, []) .leaf) 2137 2137 (220, []) (.node .leaf 2138 2138 (220, []) .leaf)))) 2139 2139 (220, []) (.node (.node (.node (.node (.node .leaf 2259 2259 (220, []) .leaf) 2260 2260 (230, []) .leaf) 2261 2261 (230, []) (.node (.node .leaf 2262 2262 (230, []) .leaf) 2263 2263 (230, []) .leaf)) 2264 2264 (230, []) (.node (.node (.node .leaf 2265 2265 (230, []) .leaf) 2266 2266 (230, []) .leaf) 2267 2267 (230, []) (.node (.node .leaf 2268 2268 (230, []) .leaf) 2269 2269 (230, []) .leaf))) 2270 2270 (230, []) (.node (.node (.node (.node .leaf 2271 2271 (230, []) .leaf) 2272 2272 (230, []) .leaf) 2273 2273 (230, []) (.node (.node .leaf 2275 2275 (220, []) .leaf) 2276 2276 (230, []) .leaf)) 2277 2277 (230, []) (.node (.node (.node .leaf 2278 2278 (220, []) .leaf) 2279 2279 (230, []) .leaf) 2280 2280 (230, []) (.node .leaf 2281 2281 (220, []) .leaf)))))) 2282 2282 (230, []) (.node (.node (.node (.node (.node (.node (.node .leaf 2283 2283 (230, []) .leaf) 2284 2284 (230, []) .leaf) 2285 2285 (220, []) (.node (.node .leaf 2286 2286 (220, []) .leaf) 2287 2287 (220, []) .leaf)) 2288 2288 (27, []) (.node (.node (.node .leaf 2289 2289 (28, []) .leaf) 2290 2290 (29, []) .leaf) 2291 2291 (230, []) (.node (.node .leaf 2292 2292 (230, []) .leaf) 2293 2293 (230, []) .leaf))) 2294 2294 (220, []) (.node (.node (.node (.node .leaf 2295 2295 (230, []) .leaf) 2296 2296 (230, []) .leaf) 2297 2297 (220, []) (.node (.node .leaf 2298 2298 (220, []) .leaf) 2299 2299 (230, []) .leaf)) 2300 2300 (230, []) (.node (.node (.node .leaf 2301 2301 (230, []) .leaf) 2302 2302 (230, []) .leaf) 2303 2303 (230, []) (.node .leaf 2345 2345 (0, [2344, 2364]) .leaf)))) 2353 2353 (0, [2352, 2364]) (.node (.node (.node (.node (.node .leaf 2356 2356 (0, [2355, 2364]) .leaf) 2364 2364 (7, []) .leaf) 2381 2381 (9, []) (.node (.node .leaf 2385 2385 (230, []) .leaf) 2386 2386 (220, []) .leaf)) 2387 2387 (230, []) (.node (.node (.node .leaf 2388 2388 (230, []) .leaf) 2392 2392 (0, [2325, 2364]) .leaf) 2393 2393 (0, [2326, 2364]) (.node (.node .leaf 2394 2394 (0, [2327, 2364]) .leaf) 2395 2395 (0, [2332, 2364]) .leaf))) 2396 2396 (0, [2337, 2364]) (.node (.node (.node (.node .leaf 2397 2397 (0, [2338, 2364]) .leaf) 2398 2398 (0, [2347, 2364]) .leaf) 2399 2399 (0, [2351, 2364]) (.node (.node .leaf 2492 2492 (7, []) .leaf) 2507 2507 (0, [2503, 2494]) .leaf)) 2508 2508 (0, [2503, 2519]) (.node (.node (.node .leaf 2509 2509 (9, []) .leaf) 2524 2524 (0, [2465, 2492]) .leaf) 2525 2525 (0, [2466, 2492]) (.node .leaf 2527 2527 (0, [2479, 2492]) .leaf))))) 2558 2558 (230, []) (.node (.node (.node (.node (.node (.node .leaf 2611 2611 (0, [2610, 2620]) .leaf) 2614 2614 (0, [2616, 2620]) .leaf) 2620 2620 (7, []) (.node (.node .leaf 2637 2637 (9, []) .leaf) 2649 2649 (0, [2582, 2620]) .leaf)) 2650 2650 (0, [2583, 2620]) (.node (.node (.node .leaf 2651 2651 (0, [2588, 2620]) .leaf) 2654 2654 (0, [2603, 2620]) .leaf) 2748 2748 (7, []) (.node (.node .leaf 2765 2765 (9, []) .leaf) 2876 2876 (7, []) .leaf))) 2888 2888 (0, [2887, 2902]) (.node (.node (.node (.node .leaf 2891 2891 (0, [2887, 2878]) .leaf) 2892 2892 (0, [2887, 2903]) .leaf) 2893 2893 (9, []) (.node (.node .leaf 2908 2908 (0, [2849, 2876]) .leaf) 2909 2909 (0, [2850, 2876]) .leaf)) 2964 2964 (0, [2962, 3031]) (.node (.node (.node .leaf 3018 3018 (0, [3014, 3006]) .leaf) 3019 3019 (0, [3015, 3006]) .leaf) 3020 3020 (0, [3014, 3031]) (.node .leaf 3021 3021 (9, []) .leaf)))) 3144 3144 (0, [3142, 3158]) (.node (.node (.node (.node (.node .leaf 3149 3149 (9, []) .leaf) 3157 3157 (84, []) .leaf) 3158 3158 (91, []) (.node (.node .leaf 3260 3260 (7, []) .leaf) 3264 3264 (0, [3263, 3285]) .leaf)) 3271 3271 (0, [3270, 3285]) (.node (.node (.node .leaf 3272 3272 (0, [3270, 3286]) .leaf) 3274 3274 (0, [3270, 3266]) .leaf) 3275 3275 (0, [3274, 3285]) (.node .leaf 3277 3277 (9, []) .leaf))) 3387 3387 (9, []) (.node (.node (.node (.node .leaf 3388 3388 (9, []) .leaf) 3402 3402 (0, [3398, 3390]) .leaf) 3403 3403 (0, [3399, 3390]) (.node (.node .leaf 3404 3404 (0, [3398, 3415]) .leaf) 3405 3405 (9, []) .leaf)) 3530 3530 (9, []) (.node (.node (.node .leaf 3546 3546 (0, [3545, 3530]) .leaf) 3548 3548 (0, [3545, 3535]) .leaf) 3549 3549 (0, [3548, 3530]) (.node .leaf 3550 3550 (0, [3545, 3551]) .leaf))))))))

def unicodeData2 : RTree (Nat × List Nat) := (.node (.node (.node (.node (.node (.node (.node (.node (.node .leaf 3641 3641 (103, []) .leaf) 3642 3642 (9, []) .leaf) 3656 3656 (107, []) (.node (.node .leaf 3657 3657 (107, []) .leaf) 3658 3658 (107, []) .leaf)) 3659 3659 (107, []) (.node (.node (.node .leaf 3768 3768 (118, []) .leaf) 3769 3769 (118, []) .leaf) 3770 3770 (9, []) (.node (.node .leaf 3784 3784 (122, []) .leaf) 3785 3785 (122, []) .leaf))) 3786 3786 (122, []) (.node (.node (.node (.node .leaf 3787 3787 (122, []) .leaf) 3864 3864 (220, []) .leaf) 3865 3865 (220, []) (.node (.node .leaf 3893 3893 (220, []) .leaf) 3895 3895 (220, []) .leaf)) 3897 3897 (216, []) (.node (.node (.node .leaf 3907 3907 (0, [3906, 4023]) .leaf) 3917 3917 (0, [3916, 4023]) .leaf) 3922 3922 (0, [3921, 4023]) (.node .leaf 3927 3927 (0, [3926, 4023]) .leaf)))) 3932 3932 (0, [3931, 4023]) (.node (.node (.node (.node (.node .leaf 3945 3945 (0, [3904, 4021]) .leaf) 3953 3953 (129, []) .leaf) 3954 3954 (130, []) (.node (.node .leaf 3955 3955 (0, [3953, 3954]) .leaf) 3956 3956 (132, []) .leaf)) 3957 3957 (0, [3953, 3956]) (.node (.node (.node .leaf 3958 3958 (0, [4018, 3968]) .leaf) 3960 3960 (0, [4019, 3968]) .leaf) 3962 3962 (130, []) (.node (.node .leaf 3963 3963 (130, []) .leaf) 3964 3964 (130, []) .leaf))) 3965 3965 (130, []) (.node (.node (.node (.node .leaf 3968 3968 (130, []) .leaf) 3969 3969 (0, [3953, 3968]) .leaf) 3970 3970 (230, []) (.node (.node .leaf 3971 3971 (230, []) .leaf) 3972 3972 (9, []) .leaf)) 3974 3974 (230, []) (.node (.node (.node .leaf 3975 3975 (230, []) .leaf) 3987 3987 (0, [3986, 4023]) .leaf) 3997 3997 (0, [3996, 4023]) (.node .leaf 4002 4002 (0, [4001, 4023]) .leaf))))) 4007 4007 (0, [4006, 4023]) (.node (.node (.node (.node (.node (.node .leaf 4012 4012 (0, [4011, 4023]) .leaf) 4025 4025 (0, [3984, 4021]) .leaf) 4038 4038 (220, []) (.node (.node .leaf 4134 4134 (0, [4133, 4142]) .leaf) 4151 4151 (7, []) .leaf)) 4153 4153 (9, []) (.node (.node (.node .leaf 4154 4154 (9, []) .leaf) 4237 4237 (220, []) .leaf) 4957 4957 (230, []) (.node (.node .leaf 4958 4958 (230, []) .leaf) 4959 4959 (230, []) .leaf))) 5908 5908 (9, []) (.node (.node (.node (.node .leaf 5940 5940 (9, []) .leaf) 6098 6098 (9, []) .leaf) 6109 6109 (230, []) (.node (.node .leaf 6313 6313 (228, []) .leaf) 6457 6457 (222, []) .leaf)) 6458 6458 (230, []) (.node (.node (.node .leaf 6459 6459 (220, []) .leaf) 6679 6679 (230, []) .leaf) 6680 6680 (220, []) (.node .leaf 6752 6752 (9, []) .leaf)))) 6773 6773 (230, []) (.node (.node (.node (.node (.node .leaf 6774 6774 (230, []) .leaf) 6775 6775 (230, []) .leaf) 6776 6776 (230, []) (.node (.node .leaf 6777 6777 (230, []) .leaf) 6778 6778 (230, []) .leaf)) 6779 6779 (230, []) (.node (.node (.node .leaf 6780 6780 (230, []) .leaf) 6783 6783 (220, []) .leaf) 6832 6832 (230, []) (.node (.node .leaf 6833 6833 (230, []) .leaf) 6834 6834 (230, []) .leaf))) 6835 6835 (230, []) (.node (.node (.node (.node .leaf 6836 6836 (230, []) .leaf) 6837 6837 (220, []) .leaf) 6838 6838 (220, []) (.node (.node .leaf 6839 6839 (220, []) .leaf) 6840 6840 (220, []) .leaf)) 6841 6841 (220, []) (.node (.node (.node .leaf 6842 6842 (220, []) .leaf) 6843 6843 (230, []) .leaf) 6844 6844 (230, []) (.node .leaf 6845 6845 (220, []) .leaf)))))) 6847 6847 (220, []) (.node (.node (.node (.node (.node (.node (.node .leaf 6848 6848 (220, []) .leaf) 6918 6918 (0, [6917, 6965]) .leaf) 6920 6920 (0, [6919, 6965]) (.node (.node .leaf 6922 6922 (0, [6921, 6965]) .leaf) 6924 6924 (0, [6923, 6965]) .leaf)) 6926 6926 (0, [6925, 6965]) (.node (.node (.node .leaf 6930 6930 (0, [6929, 6965]) .leaf) 6964 6964 (7, []) .leaf) 6971 6971 (0, [6970, 6965]) (.node (.node .leaf 6973 6973 (0, [6972, 6965]) .leaf) 6976 6976 (0, [6974, 6965]) .leaf))) 6977 6977 (0, [6975, 6965]) (.node (.node (.node (.node .leaf 6979 6979 (0, [6978, 6965]) .leaf) 6980 6980 (9, []) .leaf) 7019 7019 (230, []) (.node (.node .leaf 7020 7020 (220, []) .leaf) 7021 7021 (230, []) .leaf)) 7022 7022 (230, []) (.node (.node (.node .leaf 7023 7023 (230, []) .leaf) 7024 7024 (230, []) .leaf) 7025 7025 (230, []) (.node .leaf 7026 7026 (230, []) .leaf)))) 7027 7027 (230, []) (.node (.node (.node (.node (.node .leaf 7082 7082 (9, []) .leaf) 7083 7083 (9, []) .leaf) 7142 7142 (7, []) (.node (.node .leaf 7154 7154 (9, []) .leaf) 7155 7155 (9, []) .leaf)) 7223 7223 (7, []) (.node (.node (.node .leaf 7376 7376 (230, []) .leaf) 7377 7377 (230, []) .leaf) 7378 7378 (230, []) (.node (.node .leaf 7380 7380 (1, []) .leaf) 7381 7381 (220, []) .leaf))) 7382 7382 (220, []) (.node (.node (.node (.node .leaf 7383 7383 (220, []) .leaf) 7384 7384 (220, []) .leaf) 7385 7385 (220, []) (.node (.node .leaf 7386 7386 (230, []) .leaf) 7387 7387 (230, []) .leaf)) 7388 7388 (220, []) (.node (.node (.node .leaf 7389 7389 (220, []) .leaf) 7390 7390 (220, []) .leaf) 7391 7391 (220, []) (.node .leaf 7392 7392 (230, []) .leaf))))) 7394 7394 (1, []) (.node (.node (.node (.node (.node (.node .leaf 7395 7395 (1, []) .leaf) 7396 7396 (1, []) .leaf) 7397 7397 (1, []) (.node (.node .leaf 7398 7398 (1, []) .leaf) 7399 7399 (1, []) .leaf)) 7400 7400 (1, []) (.node (.node (.node .leaf 7405 7405 (220, []) .leaf) 7412 7412 (230, []) .leaf) 7416 7416 (230, []) (.node (.node .leaf 7417 7417 (230, []) .leaf) 7616 7616 (230, []) .leaf))) 7617 7617 (230, []) (.node (.node (.node (.node .leaf 7618 7618 (220, []) .leaf) 7619 7619 (230, []) .leaf) 7620 7620 (230, []) (.node (.node .leaf 7621 7621 (230, []) .leaf) 7622 7622 (230, []) .leaf)) 7623 7623 (230, []) (.node (.node (.node .leaf 7624 7624 (230, []) .leaf) 7625 7625 (230, []) .leaf) 7626 7626 (220, []) (.node .leaf 7627 7627 (230, []) .leaf)))) 7628 7628 (230, []) (.node (.node (.node (.node (.node .leaf 7629 7629 (234, []) .leaf) 7630 7630 (214, []) .leaf) 7631 7631 (220, []) (.node (.node .leaf 7632 7632 (202, []) .leaf) 7633 7633 (230, []) .leaf)) 7634 7634 (230, []) (.node (.node (.node .leaf 7635 7635 (230, []) .leaf) 7636 7636 (230, []) .leaf) 7637 7637 (230, []) (.node .leaf 7638 7638 (230, []) .leaf))) 7639 7639 (230, []) (.node (.node (.node (.node .leaf 7640 7640 (230, []) .leaf) 7641 7641 (230, []) .leaf) 7642 7642 (230, []) (.node (.node .leaf 7643 7643 (230, []) .leaf) 7644 7644 (230, []) .leaf)) 7645 7645 (230, []) (.node (.node (.node .leaf 7646 7646 (230, []) .leaf) 7647 7647 (230, []) .leaf) 7648 7648 (230, []) (.node .leaf 7649 7649 (230, []) .leaf))))))) 7650 7650 (230, []) (.node (.node (.node (.node (.node (.node (.node (.node .leaf 7651 7651 (230, []) .leaf) 7652 7652 (230, []) .leaf) 7653 7653 (230, []) (.node (.node .leaf 7654 7654 (230, []) .leaf) 7655 7655 (230, []) .leaf)) 7656 7656 (230, []) (.node (.node (.node .leaf 7657 7657 (230, []) .leaf) 7658 7658 (230, []) .leaf) 7659 7659 (230, []) (.node (.node .leaf 7660 7660 (230, []) .leaf) 7661 7661 (230, []) .leaf))) 7662 7662 (230, []) (.node (.node (.node (.node .leaf 7663 7663 (230, []) .leaf) 7664 7664 (230, []) .leaf) 7665 7665 (230, []) (.node (.node .leaf 7666 7666 (230, []) .leaf) 7667 7667 (230, []) .leaf)) 7668 7668 (230, []) (.node (.node (.node .leaf 7669 7669 (230, []) .leaf) 7670 7670 (232, []) .leaf) 7671 7671 (228, []) (.node .leaf 7672 7672 (228, []) .leaf)))) 7673 7673 (220, []) (.node (.node (.node (.node (.node .leaf 7675 7675 (230, []) .leaf) 7676 7676 (233, []) .leaf) 7677 7677 (220, []) (.node (.node .leaf 7678 7678 (230, []) .leaf) 7679 7679 (220, []) .leaf)) 7680 7680 (0, [65, 805]) (.node (.node (.node .leaf 7681 7681 (0, [97, 805]) .leaf) 7682 7682 (0, [66, 775]) .leaf) 7683 7683 (0, [98, 775]) (.node (.node .leaf 7684 7684 (0, [66, 803]) .leaf) 7685 7685 (0, [98, 803]) .leaf))) 7686 7686 (0, [66, 817]) (.node (.node (.node (.node .leaf 7687 7687 (0, [98, 817]) .leaf) 7688 7688 (0, [199, 769]) .leaf) 7689 7689 (0, [231, 769]) (.node (.node .leaf 7690 7690 (0, [68, 775]) .leaf) 7691 7691 (0, [100, 775]) .leaf)) 7692 7692 (0, [68, 803]) (.node (.node (.node .leaf 7693 7693 (0, [100, 803]) .leaf) 7694 7694 (0, [68, 817]) .leaf) 7695 7695 (0, [100, 817]) (.node .leaf 7696 7696 (0, [68, 807]) .leaf))))) 7697 7697 (0, [100, 807]) (.node (.node (.node (.node (.node (.node .leaf 7698 7698 (0, [68, 813]) .leaf) 7699 7699 (0, [100, 813]) .leaf) 7700 7700 (0, [274, 768]) (.node (.node .leaf 7701 7701 (0, [275, 768]) .leaf) 7702 7702 (0, [274, 769]) .leaf)) 7703 7703 (0, [275, 769]) (.node (.node (.node .leaf 7704 7704 (0, [69, 813]) .leaf) 7705 7705 (0, [101, 813]) .leaf) 7706 7706 (0, [69, 816]) (.node (.node .leaf 7707 7707 (0, [101, 816]) .leaf) 7708 7708 (0, [552, 774]) .leaf))) 7709 7709 (0, [553, 774]) (.node (.node (.node (.node .leaf 7710 7710 (0, [70, 775]) .leaf) 7711 7711 (0, [102, 775]) .leaf) 7712 7712 (0, [71, 772]) (.node (.node .leaf 7713 7713 (0, [103, 772]) .leaf) 7714 7714 (0, [72, 775]) .leaf)) 7715 7715 (0, [104, 775]) (.node (.node (.node .leaf 7716 7716 (0, [72, 803]) .leaf) 7717 7717 (0, [104, 803]) .leaf) 7718 7718 (0, [72, 776]) (.node .leaf 7719 7719 (0, [104, 776]) .leaf)))) 7720 7720 (0, [72, 807]) (.node (.node (.node (.node (.node .leaf 7721 7721 (0, [104, 807]) .leaf) 7722 7722 (0, [72, 814]) .leaf) 7723 7723 (0, [104, 814]) (.node (.node .leaf 7724 7724 (0, [73, 816]) .leaf) 7725 7725 (0, [105, 816]) .leaf)) 7726 7726 (0, [207, 769]) (.node (.node (.node .leaf 7727 7727 (0, [239, 769]) .leaf) 7728 7728 (0, [75, 769]) .leaf) 7729 7729 (0, [107, 769]) (.node (.node .leaf 7730 7730 (0, [75, 803]) .leaf) 7731 7731 (0, [107, 803]) .leaf))) 7732 7732 (0, [75, 817]) (.node (.node (.node (.node .leaf 7733 7733 (0, [107, 817]) .leaf) 7734 7734 (0, [76, 803]) .leaf) 7735 7735 (0, [108, 803]) (.node (.node .leaf 7736 7736 (0, [7734, 772]) .leaf) 7737 7737 (0, [7735, 772]) .leaf)) 7738 7738 (0, [76, 817]) (.node (.node (.node .leaf 7739 7739 (0, [108, 817]) .leaf) 7740 7740 (0, [76, 813]) .leaf) 7741 7741 (0, [108, 813]) (.node .leaf 7742 7742 (0, [77, 769]) .leaf)))))) 7743 7743 (0, [109, 769]) (.node (.node (.node (.node (.node (.node (.node .leaf 7744 7744 (0, [77, 775]) .leaf) 7745 7745 (0, [109, 775]) .leaf) 7746 7746 (0, [77, 803]) (.node (.node .leaf 7747 7747 (0, [109, 803]) .leaf) 7748 7748 (0, [78, 775]) .leaf)) 7749 7749 (0, [110, 775]) (.node (.node (.node .leaf 7750 7750 (0, [78, 803]) .leaf) 7751 7751 (0, [110, 803]) .leaf) 7752 7752 (0, [78, 817]) (.node (.node .leaf 7753 7753 (0, [110, 817]) .leaf) 7754 7754 (0, [78, 813]) .leaf))) 7755 7755 (0, [110, 813]) (.node (.node (.node (.node .leaf 7756 7756 (0, [213, 769]) .leaf) 7757 7757 (0, [245, 769]) .leaf) 7758 7758 (0, [213, 776]) (.node (.node .leaf 7759 7759 (0, [245, 776]) .leaf) 7760 7760 (0, [332, 768]) .leaf)) 7761 7761 (0, [333, 768]) (.node (.node (.node .leaf 7762 7762 (0, [332, 769]) .leaf) 7763 7763 (0, [333, 769]) .leaf) 7764 7764 (0, [80, 769]) (.node .leaf 7765 7765 (0, [112, 769]) .leaf)))) 7766 7766 (0, [80, 775]) (.node (.node (.node (.node (.node .leaf 7767 7767 (0, [112, 775]) .leaf) 7768 7768 (0, [82, 775]) .leaf) 7769 7769 (0, [114, 775]) (.node (.node .leaf 7770 7770 (0, [82, 803]) .leaf) 7771 7771 (0, [114, 803]) .leaf)) 7772 7772 (0, [7770, 772]) (.node (.node (.node .leaf 7773 7773 (0, [7771, 772]) .leaf) 7774 7774 (0, [82, 817]) .leaf) 7775 7775 (0, [114, 817]) (.node (.node .leaf 7776 7776 (0, [83, 775]) .leaf) 7777 7777 (0, [115, 775]) .leaf))) 7778 7778 (0, [83, 803]) (.node (.node (.node (.node .leaf 7779 7779 (0, [115, 803]) .leaf) 7780 7780 (0, [346, 775]) .leaf) 7781 7781 (0, [347, 775]) (.node (.node .leaf 7782 7782 (0, [352, 775]) .leaf) 7783 7783 (0, [353, 775]) .leaf)) 7784 7784 (0, [7778, 775]) (.node (.node (.node .leaf 7785 7785 (0, [7779, 775]) .leaf) 7786 7786 (0, [84, 775]) .leaf) 7787 7787 (0, [116, 775]) (.node .leaf 7788 7788 (0, [84, 803]) .leaf))))) 7789 7789 (0, [116, 803]) (.node (.node (.node (.node (.node (.node .leaf 7790 7790 (0, [84, 817]) .leaf) 7791 7791 (0, [116, 817]) .leaf) 7792 7792 (0, [84, 813]) (.node (.node .leaf 7793 7793 (0, [116, 813]) .leaf) 7794 7794 (0, [85, 804]) .leaf)) 7795 7795 (0, [117, 804]) (.node (.node (.node .leaf 7796 7796 (0, [85, 816]) .leaf) 7797 7797 (0, [117, 816]) .leaf) 7798 7798 (0, [85, 813]) (.node (.node .leaf 7799 7799 (0, [117, 813]) .leaf) 7800 7800 (0, [360, 769]) .leaf))) 7801 7801 (0, [361, 769]) (.node (.node (.node (.node .leaf 7802 7802 (0, [362, 776]) .leaf) 7803 7803 (0, [363, 776]) .leaf) 7804 7804 (0, [86, 771]) (.node (.node .leaf 7805 7805 (0, [118, 771]) .leaf) 7806 7806 (0, [86, 803]) .leaf)) 7807 7807 (0, [118, 803]) (.node (.node (.node .leaf 7808 7808 (0, [87, 768]) .leaf) 7809 7809 (0, [119, 768]) .leaf) 7810 7810 (0, [87, 769]) (.node .leaf 7811 7811 (0, [119, 769]) .leaf)))) 7812 7812 (0, [87, 776]) (.node (.node (.node (.node (.node .leaf 7813 7813 (0, [119, 776]) .leaf) 7814 7814 (0, [87, 775]) .leaf) 7815 7815 (0, [119, 775]) (.node (.node .leaf 7816 7816 (0, [87, 803]) .leaf) 7817 7817 (0, [119, 803]) .leaf)) 7818 7818 (0, [88, 775]) (.node (.node (.node .leaf 7819 7819 (0, [120, 775]) .leaf) 7820 7820 (0, [88, 776]) .leaf) 7821 7821 (0, [120, 776]) (.node .leaf 7822 7822 (0, [89, 775]) .leaf))) 7823 7823 (0, [121, 775]) (.node (.node (.node (.node .leaf 7824 7824 (0, [90, 770]) .leaf) 7825 7825 (0, [122, 770]) .leaf) 7826 7826 (0, [90, 803]) (.node (.node .leaf 7827 7827 (0, [122, 803]) .leaf) 7828 7828 (0, [90, 817]) .leaf)) 7829 7829 (0, [122, 817]) (.node (.node (.node .leaf 7830 7830 (0, [104, 817]) .leaf) 7831 7831 (0, [116, 776]) .leaf) 7832 7832 (0, [119, 778]) (.node .leaf 7833 7833 (0, [121, 778]) .leaf))))))))

def unicodeData3 : RTree (Nat × List Nat) := (.node (.node (.node (.node (.node (.node (.node (.node (.node .leaf 7840 7840 (0, [65, 803]) .leaf) 7841 7841 (0, [97, 803]) .leaf) 7842 7842 (0, [65, 777]) (.node (.node .leaf 7843 7843 (0, [97, 777]) .leaf) 7844 7844 (0, [194, 769]) .leaf)) 7845 7845 (0, [226, 769]) (.node (.node (.node .leaf 7846 7846 (0, [194, 768]) .leaf) 7847 7847 (0, [226, 768]) .leaf) 7848 7848 (0, [194, 777]) (.node (.node .leaf 7849 7849 (0, [226, 777]) .leaf) 7850 7850 (0, [194, 771]) .leaf))) 7851 7851 (0, [226, 771]) (.node (.node (.node (.node .leaf 7852 7852 (0, [7840, 770]) .leaf) 7853 7853 (0, [7841, 770]) .leaf) 7854 7854 (0, [258, 769]) (.node (.node .leaf 7855 7855 (0, [259, 769]) .leaf) 7856 7856 (0, [258, 768]) .leaf)) 7857 7857 (0, [259, 768]) (.node (.node (.node .leaf 7858 7858 (0, [258, 777]) .leaf) 7859 7859 (0, [259, 777]) .leaf) 7860 7860 (0, [258, 771]) (.node .leaf 7861 7861 (0, [259, 771]) .leaf)))) 7862 7862 (0, [7840, 774]) (.node (.node (.node (.node (.node .leaf 7863 7863 (0, [7841, 774]) .leaf) 7864 7864 (0, [69, 803]) .leaf) 7865 7865 (0, [101, 803]) (.node (.node .leaf 7866 7866 (0, [69, 777]) .leaf) 7867 7867 (0, [101, 777]) .leaf)) 7868 7868 (0, [69, 771]) (.node (.node (.node .leaf 7869 7869 (0, [101, 771]) .leaf) 7870 7870 (0, [202, 769]) .leaf) 7871 7871 (0, [234, 769]) (.node (.node .leaf 7872 7872 (0, [202, 768]) .leaf) 7873 7873 (0, [234, 768]) .leaf))) 7874 7874 (0, [202, 777]) (.node (.node (.node (.node .leaf 7875 7875 (0, [234, 777]) .leaf) 7876 7876 (0, [202, 771]) .leaf) 7877 7877 (0, [234, 771]) (.node (.node .leaf 7878 7878 (0, [7864, 770]) .leaf) 7879 7879 (0, [7865, 770]) .leaf)) 7880 7880 (0, [73, 777]) (.node (.node (.node .leaf 7881 7881 (0, [105, 777]) .leaf) 7882 7882 (0, [73, 803]) .leaf) 7883 7883 (0, [105, 803]) (.node .leaf 7884 7884 (0, [79, 803]) .leaf))))) 7885 7885 (0, [111, 803]) (.node (.node (.node (.node (.node (.node .leaf 7886 7886 (0, [79, 777]) .leaf) 7887 7887 (0, [111, 777]) .leaf) 7888 7888 (0, [212, 769]) (.node (.node .leaf 7889 7889 (0, [244, 769]) .leaf) 7890 7890 (0, [212, 768]) .leaf)) 7891 7891 (0, [244, 768]) (.node (.node (.node .leaf 7892 7892 (0, [212, 777]) .leaf) 7893 7893 (0, [244, 777]) .leaf) 7894 7894 (0, [212, 771]) (.node (.node .leaf 7895 7895 (0, [244, 771]) .leaf) 7896 7896 (0, [7884, 770]) .leaf))) 7897 7897 (0, [7885, 770]) (.node (.node (.node (.node .leaf 7898 7898 (0, [416, 769]) .leaf) 7899 7899 (0, [417, 769]) .leaf) 7900 7900 (0, [416, 768]) (.node (.node .leaf 7901 7901 (0, [417, 768]) .leaf) 7902 7902 (0, [416, 777]) .leaf)) 7903 7903 (0, [417, 777]) (.node (.node (.node .leaf 7904 7904 (0, [416, 771]) .leaf) 7905 7905 (0, [417, 771]) .leaf) 7906 7906 (0, [416, 803]) (.node .leaf 7907 7907 (0, [417, 803]) .leaf)))) 7908 7908 (0, [85, 803]) (.node (.node (.node (.node (.node .leaf 7909 7909 (0, [117, 803]) .leaf) 7910 7910 (0, [85, 777]) .leaf) 7911 7911 (0, [117, 777]) (.node (.node .leaf 7912 7912 (0, [431, 769]) .leaf) 7913 7913 (0, [432, 769]) .leaf)) 7914 7914 (0, [431, 768]) (.node (.node (.node .leaf 7915 7915 (0, [432, 768]) .leaf) 7916 7916 (0, [431, 777]) .leaf) 7917 7917 (0, [432, 777]) (.node (.node .leaf 7918 7918 (0, [431, 771]) .leaf) 7919 7919 (0, [432, 771]) .leaf))) 7920 7920 (0, [431, 803]) (.node (.node (.node (.node .leaf 7921 7921 (0, [432, 803]) .leaf) 7922 7922 (0, [89, 768]) .leaf) 7923 7923 (0, [121, 768]) (.node (.node .leaf 7924 7924 (0, [89, 803]) .leaf) 7925 7925 (0, [121, 803]) .leaf)) 7926 7926 (0, [89, 777]) (.node (.node (.node .leaf 7927 7927 (0, [121, 777]) .leaf) 7928 7928 (0, [89, 771]) .leaf) 7929 7929 (0, [121, 771]) (.node .leaf 7936 7936 (0, [945, 787]) .leaf)))))) 7937 7937 (0, [945, 788]) (.node (.node (.node (.node (.node (.node (.node .leaf 7938 7938 (0, [7936, 768]) .leaf) 7939 7939 (0, [7937, 768]) .leaf) 7940 7940 (0, [7936, 769]) (.node (.node .leaf 7941 7941 (0, [7937, 769]) .leaf) 7942 7942 (0, [7936, 834]) .leaf)) 7943 7943 (0, [7937, 834]) (.node (.node (.node .leaf 7944 7944 (0, [913, 787]) .leaf) 7945 7945 (0, [913, 788]) .leaf) 7946 7946 (0, [7944, 768]) (.node (.node .leaf 7947 7947 (0, [7945, 768]) .leaf) 7948 7948 (0, [7944, 769]) .leaf))) 7949 7949 (0, [7945, 769]) (.node (.node (.node (.node .leaf 7950 7950 (0, [7944, 834]) .leaf) 7951 7951 (0, [7945, 834]) .leaf) 7952 7952 (0, [949, 787]) (.node (.node .leaf 7953 7953 (0, [949, 788]) .leaf) 7954 7954 (0, [7952, 768]) .leaf)) 7955 7955 (0, [7953, 768]) (.node (.node (.node .leaf 7956 7956 (0, [7952, 769]) .leaf) 7957 7957 (0, [7953, 769]) .leaf) 7960 7960 (0, [917, 787]) (.node .leaf 7961 7961 (0, [917, 788]) .leaf)))) 7962 7962 (0, [7960, 768]) (.node (.node (.node (.node (.node .leaf 7963 7963 (0, [7961, 768]) .leaf) 7964 7964 (0, [7960, 769]) .leaf) 7965 7965 (0, [7961, 769]) (.node (.node .leaf 7968 7968 (0, [951, 787]) .leaf) 7969 7969 (0, [951, 788]) .leaf)) 7970 7970 (0, [7968, 768]) (.node (.node (.node .leaf 7971 7971 (0, [7969, 768]) .leaf) 7972 7972 (0, [7968, 769]) .leaf) 7973 7973 (0, [7969, 769]) (.node (.node .leaf 7974 7974 (0, [7968, 834]) .leaf) 7975 7975 (0, [7969, 834]) .leaf))) 7976 7976 (0, [919, 787]) (.node (.node (.node (.node .leaf 7977 7977 (0, [919, 788]) .leaf) 7978 7978 (0, [7976, 768]) .leaf) 7979 7979 (0, [7977, 768]) (.node (.node .leaf 7980 7980 (0, [7976, 769]) .leaf) 7981 7981 (0, [7977, 769]) .leaf)) 7982 7982 (0, [7976, 834]) (.node (.node (.node .leaf 7983 7983 (0, [7977, 834]) .leaf) 7984 7984 (0, [953, 787]) .leaf) 7985 7985 (0, [953, 788]) (.node .leaf 7986 7986 (0, [7984, 768]) .leaf))))) 7987 7987 (0, [7985, 768]) (.node (.node (.node (.node (.node (.node .leaf 7988 7988 (0, [7984, 769]) .leaf) 7989 7989 (0, [7985, 769]) .leaf) 7990 7990 (0, [7984, 834]) (.node (.node .leaf 7991 7991 (0, [7985, 834]) .leaf) 7992 7992 (0, [921, 787]) .leaf)) 7993 7993 (0, [921, 788]) (.node (.node (.node .leaf 7994 7994 (0, [7992, 768]) .leaf) 7995 7995 (0, [7993, 768]) .leaf) 7996 7996 (0, [7992, 769]) (.node (.node .leaf 7997 7997 (0, [7993, 769]) .leaf) 7998 7998 (0, [7992, 834]) .leaf))) 7999 7999 (0, [7993, 834]) (.node (.node (.node (.node .leaf 8000 8000 (0, [959, 787]) .leaf) 8001 8001 (0, [959, 788]) .leaf) 8002 8002 (0, [8000, 768]) (.node (.node .leaf 8003 8003 (0, [8001, 768]) .leaf) 8004 8004 (0, [8000, 769]) .leaf)) 8005 8005 (0, [8001, 769]) (.node (.node (.node .leaf 8008 8008 (0, [927, 787]) .leaf) 8009 8009 (0, [927, 788]) .leaf) 8010 8010 (0, [8008, 768]) (.node .leaf 8011 8011 (0, [8009, 768]) .leaf)))) 8012 8012 (0, [8008, 769]) (.node (.node (.node (.node (.node .leaf 8013 8013 (0, [8009, 769]) .leaf) 8016 8016 (0, [965, 787]) .leaf) 8017 8017 (0, [965, 788]) (.node (.node .leaf 8018 8018 (0, [8016, 768]) .leaf) 8019 8019 (0, [8017, 768]) .leaf)) 8020 8020 (0, [8016, 769]) (.node (.node (.node .leaf 8021 8021 (0, [8017, 769]) .leaf) 8022 8022 (0, [8016, 834]) .leaf) 8023 8023 (0, [8017, 834]) (.node .leaf 8025 8025 (0, [933, 788]) .leaf))) 8027 8027 (0, [8025, 768]) (.node (.node (.node (.node .leaf 8029 8029 (0, [8025, 769]) .leaf) 8031 8031 (0, [8025, 834]) .leaf) 8032 8032 (0, [969, 787]) (.node (.node .leaf 8033 8033 (0, [969, 788]) .leaf) 8034 8034 (0, [8032, 768]) .leaf)) 8035 8035 (0, [8033, 768]) (.node (.node (.node .leaf 8036 8036 (0, [8032, 769]) .leaf) 8037 8037 (0, [8033, 769]) .leaf) 8038 8038 (0, [8032, 834]) (.node .leaf 8039 8039 (0, [8033, 834]) .leaf))))))) 8040 8040 (0, [937, 787]) (.node (.node (.node (.node (.node (.node (.node (.node .leaf 8041 8041 (0, [937, 788]) .leaf) 8042 8042 (0, [8040, 768]) .leaf) 8043 8043 (0, [8041, 768]) (.node (.node .leaf 8044 8044 (0, [8040, 769]) .leaf) 8045 8045 (0, [8041, 769]) .leaf)) 8046 8046 (0, [8040, 834]) (.node (.node (.node .leaf 8047 8047 (0, [8041, 834]) .leaf) 8048 8048 (0, [945, 768]) .leaf) 8049 8049 (0, [940]) (.node (.node .leaf 8050 8050 (0, [949, 768]) .leaf) 8051 8051 (0, [941]) .leaf))) 8052 8052 (0, [951, 768]) (.node (.node (.node (.node .leaf 8053 8053 (0, [942]) .leaf) 8054 8054 (0, [953, 768]) .leaf) 8055 8055 (0, [943]) (.node (.node .leaf 8056 8056 (0, [959, 768]) .leaf) 8057 8057 (0, [972]) .leaf)) 8058 8058 (0, [965, 768]) (.node (.node (.node .leaf 8059 8059 (0, [973]) .leaf) 8060 8060 (0, [969, 768]) .leaf) 8061 8061 (0, [974]) (.node .leaf 8064 8064 (0, [7936, 837]) .leaf)))) 8065 8065 (0, [7937, 837]) (.node (.node (.node (.node (.node .leaf 8066 8066 (0, [7938, 837]) .leaf) 8067 8067 (0, [7939, 837]) .leaf) 8068 8068 (0, [7940, 837]) (.node (.node .leaf 8069 8069 (0, [7941, 837]) .leaf) 8070 8070 (0, [7942, 837]) .leaf)) 8071 8071 (0, [7943, 837]) (.node (.node (.node .leaf 8072 8072 (0, [7944, 837]) .leaf) 8073 8073 (0, [7945, 837]) .leaf) 8074 8074 (0, [7946, 837]) (.node (.node .leaf 8075 8075 (0, [7947, 837]) .leaf) 8076 8076 (0, [7948, 837]) .leaf))) 8077 8077 (0, [7949, 837]) (.node (.node (.node (.node .leaf 8078 8078 (0, [7950, 837]) .leaf) 8079 8079 (0, [7951, 837]) .leaf) 8080 8080 (0, [7968, 837]) (.node (.node .leaf 8081 8081 (0, [7969, 837]) .leaf) 8082 8082 (0, [7970, 837]) .leaf)) 8083 8083 (0, [7971, 837]) (.node (.node (.node .leaf 8084 8084 (0, [7972, 837]) .leaf) 8085 8085 (0, [7973, 837]) .leaf) 8086 8086 (0, [7974, 837]) (.node .leaf 8087 8087 (0, [7975, 837]) .leaf))))) 8088 8088 (0, [7976, 837]) (.node (.node (.node (.node (.node (.node .leaf 8089 8089 (0, [7977, 837]) .leaf) 8090 8090 (0, [7978, 837]) .leaf) 8091 8091 (0, [7979, 837]) (.node (.node .leaf 8092 8092 (0, [7980, 837]) .leaf) 8093 8093 (0, [7981, 837]) .leaf)) 8094 8094 (0, [7982, 837]) (.node (.node (.node .leaf 8095 8095 (0, [7983, 837]) .leaf) 8096 8096 (0, [8032, 837]) .leaf) 8097 8097 (0, [8033, 837]) (.node (.node .leaf 8098 8098 (0, [8034, 837]) .leaf) 8099 8099 (0, [8035, 837]) .leaf))) 8100 8100 (0, [8036, 837]) (.node (.node (.node (.node .leaf 8101 8101 (0, [8037, 837]) .leaf) 8102 8102 (0, [8038, 837]) .leaf) 8103 8103 (0, [8039, 837]) (.node (.node .leaf 8104 8104 (0, [8040, 837]) .leaf) 8105 8105 (0, [8041, 837]) .leaf)) 8106 8106 (0, [8042, 837]) (.node (.node (.node .leaf 8107 8107 (0, [8043, 837]) .leaf) 8108 8108 (0, [8044, 837]) .leaf) 8109 8109 (0, [8045, 837]) (.node .leaf 8110 8110 (0, [8046, 837]) .leaf)))) 8111 8111 (0, [8047, 837]) (.node (.node (.node (.node (.node .leaf 8112 8112 (0, [945, 774]) .leaf) 8113 8113 (0, [945, 772]) .leaf) 8114 8114 (0, [8048, 837]) (.node (.node .leaf 8115 8115 (0, [945, 837]) .leaf) 8116 8116 (0, [940, 837]) .leaf)) 8118 8118 (0, [945, 834]) (.node (.node (.node .leaf 8119 8119 (0, [8118, 837]) .leaf) 8120 8120 (0, [913, 774]) .leaf) 8121 8121 (0, [913, 772]) (.node (.node .leaf 8122 8122 (0, [913, 768]) .leaf) 8123 8123 (0, [902]) .leaf))) 8124 8124 (0, [913, 837]) (.node (.node (.node (.node .leaf 8126 8126 (0, [953]) .leaf) 8129 8129 (0, [168, 834]) .leaf) 8130 8130 (0, [8052, 837]) (.node (.node .leaf 8131 8131 (0, [951, 837]) .leaf) 8132 8132 (0, [942, 837]) .leaf)) 8134 8134 (0, [951, 834]) (.node (.node (.node .leaf 8135 8135 (0, [8134, 837]) .leaf) 8136 8136 (0, [917, 768]) .leaf) 8137 8137 (0, [904]) (.node .leaf 8138 8138 (0, [919, 768]) .leaf)))))) 8139 8139 (0, [905]) (.node (.node (.node (.node (.node (.node (.node .leaf 8140 8140 (0, [919, 837]) .leaf) 8141 8141 (0, [8127, 768]) .leaf) 8142 8142 (0, [8127, 769]) (.node (.node .leaf 8143 8143 (0, [8127, 834]) .leaf) 8144 8144 (0, [953, 774]) .leaf)) 8145 8145 (0, [953, 772]) (.node (.node (.node .leaf 8146 8146 (0, [970, 768]) .leaf) 8147 8147 (0, [912]) .leaf) 8150 8150 (0, [953, 834]) (.node (.node .leaf 8151 8151 (0, [970, 834]) .leaf) 8152 8152 (0, [921, 774]) .leaf))) 8153 8153 (0, [921, 772]) (.node (.node (.node (.node .leaf 8154 8154 (0, [921, 768]) .leaf) 8155 8155 (0, [906]) .leaf) 8157 8157 (0, [8190, 768]) (.node (.node .leaf 8158 8158 (0, [8190, 769]) .leaf) 8159 8159 (0, [8190, 834]) .leaf)) 8160 8160 (0, [965, 774]) (.node (.node (.node .leaf 8161 8161 (0, [965, 772]) .leaf) 8162 8162 (0, [971, 768]) .leaf) 8163 8163 (0, [944]) (.node .leaf 8164 8164 (0, [961, 787]) .leaf)))) 8165 8165 (0, [961, 788]) (.node (.node (.node (.node (.node .leaf 8166 8166 (0, [965, 834]) .leaf) 8167 8167 (0, [971, 834]) .leaf) 8168 8168 (0, [933, 774]) (.node (.node .leaf 8169 8169 (0, [933, 772]) .leaf) 8170 8170 (0, [933, 768]) .leaf)) 8171 8171 (0, [910]) (.node (.node (.node .leaf 8172 8172 (0, [929, 788]) .leaf) 8173 8173 (0, [168, 768]) .leaf) 8174 8174 (0, [901]) (.node (.node .leaf 8175 8175 (0, [96]) .leaf) 8178 8178 (0, [8060, 837]) .leaf))) 8179 8179 (0, [969, 837]) (.node (.node (.node (.node .leaf 8180 8180 (0, [974, 837]) .leaf) 8182 8182 (0, [969, 834]) .leaf) 8183 8183 (0, [8182, 837]) (.node (.node .leaf 8184 8184 (0, [927, 768]) .leaf) 8185 8185 (0, [908]) .leaf)) 8186 8186 (0, [937, 768]) (.node (.node (.node .leaf 8187 8187 (0, [911]) .leaf) 8188 8188 (0, [937, 837]) .leaf) 8189 8189 (0, [180]) (.node .leaf 8192 8192 (0, [8194]) .leaf))))) 8193 8193 (0, [8195]) (.node (.node (.node (.node (.node (.node .leaf 8400 8400 (230, []) .leaf) 8401 8401 (230, []) .leaf) 8402 8402 (1, []) (.node (.node .leaf 8403 8403 (1, []) .leaf) 8404 8404 (230, []) .leaf)) 8405 8405 (230, []) (.node (.node (.node .leaf 8406 8406 (230, []) .leaf) 8407 8407 (230, []) .leaf) 8408 8408 (1, []) (.node (.node .leaf 8409 8409 (1, []) .leaf) 8410 8410 (1, []) .leaf))) 8411 8411 (230, []) (.node (.node (.node (.node .leaf 8412 8412 (230, []) .leaf) 8417 8417 (230, []) .leaf) 8421 8421 (1, []) (.node (.node .leaf 8422 8422 (1, []) .leaf) 8423 8423 (230, []) .leaf)) 8424 8424 (220, []) (.node (.node (.node .leaf 8425 8425 (230, []) .leaf) 8426 8426 (1, []) .leaf) 8427 8427 (1, []) (.node .leaf 8428 8428 (220, []) .leaf)))) 8429 8429 (220, []) (.node (.node (.node (.node (.node .leaf 8430 8430 (220, []) .leaf) 8431 8431 (220, []) .leaf) 8432 8432 (230, []) (.node (.node .leaf 8486 8486 (0, [937]) .leaf) 8490 8490 (0, [75]) .leaf)) 8491 8491 (0, [197]) (.node (.node (.node .leaf 8602 8602 (0, [8592, 824]) .leaf) 8603 8603 (0, [8594, 824]) .leaf) 8622 8622 (0, [8596, 824]) (.node .leaf 8653 8653 (0, [8656, 824]) .leaf))) 8654 8654 (0, [8660, 824]) (.node (.node (.node (.node .leaf 8655 8655 (0, [8658, 824]) .leaf) 8708 8708 (0, [8707, 824]) .leaf) 8713 8713 (0, [8712, 824]) (.node (.node .leaf 8716 8716 (0, [8715, 824]) .leaf) 8740 8740 (0, [8739, 824]) .leaf)) 8742 8742 (0, [8741, 824]) (.node (.node (.node .leaf 8769 8769 (0, [8764, 824]) .leaf) 8772 8772 (0, [8771, 824]) .leaf) 8775 8775 (0, [8773, 824]) (.node .leaf 8777 8777 (0, [8776, 824]) .leaf))))))))

def unicodeData4 : RTree (Nat × List Nat) := (.node (.node (.node (.node (.node (.node (.node (.node (.node .leaf 8802 8802 (0, [8801, 824]) .leaf) 8813 8813 (0, [8781, 824]) .leaf) 8814 8814 (0, [60, 824]) (.node (.node .leaf 8815 8815 (0, [62, 824]) .leaf) 8816 8816 (0, [8804, 824]) .leaf)) 8817 8817 (0, [8805, 824]) (.node (.node (.node .leaf 8820 8820 (0, [8818, 824]) .leaf) 8821 8821 (0, [8819, 824]) .leaf) 8824 8824 (0, [8822, 824]) (.node (.node .leaf 8825 8825 (0, [8823, 824]) .leaf) 8832 8832 (0, [8826, 824]) .leaf))) 8833 8833 (0, [8827, 824]) (.node (.node (.node (.node .leaf 8836 8836 (0, [8834, 824]) .leaf) 8837 8837 (0, [8835, 824]) .leaf) 8840 8840 (0, [8838, 824]) (.node (.node .leaf 8841 8841 (0, [8839, 824]) .leaf) 8876 8876 (0, [8866, 824]) .leaf)) 8877 8877 (0, [8872, 824]) (.node (.node (.node .leaf 8878 8878 (0, [8873, 824]) .leaf) 8879 8879 (0, [8875, 824]) .leaf) 8928 8928 (0, [8828, 824]) (.node .leaf 8929 8929 (0, [8829, 824]) .leaf)))) 8930 8930 (0, [8849, 824]) (.node (.node (.node (.node (.node .leaf 8931 8931 (0, [8850, 824]) .leaf) 8938 8938 (0, [8882, 824]) .leaf) 8939 8939 (0, [8883, 824]) (.node (.node .leaf 8940 8940 (0, [8884, 824]) .leaf) 8941 8941 (0, [8885, 824]) .leaf)) 9001 9001 (0, [12296]) (.node (.node (.node .leaf 9002 9002 (0, [12297]) .leaf) 10972 10972 (0, [10973, 824]) .leaf) 11503 11503 (230, []) (.node (.node .leaf 11504 11504 (230, []) .leaf) 11505 11505 (230, []) .leaf))) 11647 11647 (9, []) (.node (.node (.node (.node .leaf 11744 11744 (230, []) .leaf) 11745 11745 (230, []) .leaf) 11746 11746 (230, []) (.node (.node .leaf 11747 11747 (230, []) .leaf) 11748 11748 (230, []) .leaf)) 11749 11749 (230, []) (.node (.node (.node .leaf 11750 11750 (230, []) .leaf) 11751 11751 (230, []) .leaf) 11752 11752 (230, []) (.node .leaf 11753 11753 (230, []) .leaf))))) 11754 11754 (230, []) (.node (.node (.node (.node (.node (.node .leaf 11755 11755 (230, []) .leaf) 11756 11756 (230, []) .leaf) 11757 11757 (230, []) (.node (.node .leaf 11758 11758 (230, []) .leaf) 11759 11759 (230, []) .leaf)) 11760 11760 (230, []) (.node (.node (.node .leaf 11761 11761 (230, []) .leaf) 11762 11762 (230, []) .leaf) 11763 11763 (230, []) (.node (.node .leaf 11764 11764 (230, []) .leaf) 11765 11765 (230, []) .leaf))) 11766 11766 (230, []) (.node (.node (.node (.node .leaf 11767 11767 (230, []) .leaf) 11768 11768 (230, []) .leaf) 11769 11769 (230, []) (.node (.node .leaf 11770 11770 (230, []) .leaf) 11771 11771 (230, []) .leaf)) 11772 11772 (230, []) (.node (.node (.node .leaf 11773 11773 (230, []) .leaf) 11774 11774 (230, []) .leaf) 11775 11775 (230, []) (.node .leaf 12330 12330 (218, []) .leaf)))) 12331 12331 (228, []) (.node (.node (.node (.node (.node .leaf 12332 12332 (232, []) .leaf) 12333 12333 (222, []) .leaf) 12334 12334 (224, []) (.node (.node .leaf 12335 12335 (224, []) .leaf) 12364 12364 (0, [12363, 12441]) .leaf)) 12366 12366 (0, [12365, 12441]) (.node (.node (.node .leaf 12368 12368 (0, [12367, 12441]) .leaf) 12370 12370 (0, [12369, 12441]) .leaf) 12372 12372 (0, [12371, 12441]) (.node (.node .leaf 12374 12374 (0, [12373, 12441]) .leaf) 12376 12376 (0, [12375, 12441]) .leaf))) 12378 12378 (0, [12377, 12441]) (.node (.node (.node (.node .leaf 12380 12380 (0, [12379, 12441]) .leaf) 12382 12382 (0, [12381, 12441]) .leaf) 12384 12384 (0, [12383, 12441]) (.node (.node .leaf 12386 12386 (0, [12385, 12441]) .leaf) 12389 12389 (0, [12388, 12441]) .leaf)) 12391 12391 (0, [12390, 12441]) (.node (.node (.node .leaf 12393 12393 (0, [12392, 12441]) .leaf) 12400 12400 (0, [12399, 12441]) .leaf) 12401 12401 (0, [12399, 12442]) (.node .leaf 12403 12403 (0, [12402, 12441]) .leaf)))))) 12404 12404 (0, [12402, 12442]) (.node (.node (.node (.node (.node (.node (.node .leaf 12406 12406 (0, [12405, 12441]) .leaf) 12407 12407 (0, [12405, 12442]) .leaf) 12409 12409 (0, [12408, 12441]) (.node (.node .leaf 12410 12410 (0, [12408, 12442]) .leaf) 12412 12412 (0, [12411, 12441]) .leaf)) 12413 12413 (0, [12411, 12442]) (.node (.node (.node .leaf 12436 12436 (0, [12358, 12441]) .leaf) 12441 12441 (8, []) .leaf) 12442 12442 (8, []) (.node (.node .leaf 12446 12446 (0, [12445, 12441]) .leaf) 12460 12460 (0, [12459, 12441]) .leaf))) 12462 12462 (0, [12461, 12441]) (.node (.node (.node (.node .leaf 12464 12464 (0, [12463, 12441]) .leaf) 12466 12466 (0, [12465, 12441]) .leaf) 12468 12468 (0, [12467, 12441]) (.node (.node .leaf 12470 12470 (0, [12469, 12441]) .leaf) 12472 12472 (0, [12471, 12441]) .leaf)) 12474 12474 (0, [12473, 12441]) (.node (.node (.node .leaf 12476 12476 (0, [12475, 12441]) .leaf) 12478 12478 (0, [12477, 12441]) .leaf) 12480 12480 (0, [12479, 12441]) (.node .leaf 12482 12482 (0, [12481, 12441]) .leaf)))) 12485 12485 (0, [12484, 12441]) (.node (.node (.node (.node (.node .leaf 12487 12487 (0, [12486, 12441]) .leaf) 12489 12489 (0, [12488, 12441]) .leaf) 12496 12496 (0, [12495, 12441]) (.node (.node .leaf 12497 12497 (0, [12495, 12442]) .leaf) 12499 12499 (0, [12498, 12441]) .leaf)) 12500 12500 (0, [12498, 12442]) (.node (.node (.node .leaf 12502 12502 (0, [12501, 12441]) .leaf) 12503 12503 (0, [12501, 12442]) .leaf) 12505 12505 (0, [12504, 12441]) (.node (.node .leaf 12506 12506 (0, [12504, 12442]) .leaf) 12508 12508 (0, [12507, 12441]) .leaf))) 12509 12509 (0, [12507, 12442]) (.node (.node (.node (.node .leaf 12532 12532 (0, [12454, 12441]) .leaf) 12535 12535 (0, [12527, 12441]) .leaf) 12536 12536 (0, [12528, 12441]) (.node (.node .leaf 12537 12537 (0, [12529, 12441]) .leaf) 12538 12538 (0, [12530, 12441]) .leaf)) 12542 12542 (0, [12541, 12441]) (.node (.node (.node .leaf 42607 42607 (230, []) .leaf) 42612 42612 (230, []) .leaf) 42613 42613 (230, []) (.node .leaf 42614 42614 (230, []) .leaf))))) 42615 42615 (230, []) (.node (.node (.node (.node (.node (.node .leaf 42616 42616 (230, []) .leaf) 42617 42617 (230, []) .leaf) 42618 42618 (230, []) (.node (.node .leaf 42619 42619 (230, []) .leaf) 42620 42620 (230, []) .leaf)) 42621 42621 (230, []) (.node (.node (.node .leaf 42654 42654 (230, []) .leaf) 42655 42655 (230, []) .leaf) 42736 42736 (230, []) (.node (.node .leaf 42737 42737 (230, []) .leaf) 43014 43014 (9, []) .leaf))) 43052 43052 (9, []) (.node (.node (.node (.node .leaf 43204 43204 (9, []) .leaf) 43232 43232 (230, []) .leaf) 43233 43233 (230, []) (.node (.node .leaf 43234 43234 (230, []) .leaf) 43235 43235 (230, []) .leaf)) 43236 43236 (230, []) (.node (.node (.node .leaf 43237 43237 (230, []) .leaf) 43238 43238 (230, []) .leaf) 43239 43239 (230, []) (.node .leaf 43240 43240 (230, []) .leaf)))) 43241 43241 (230, []) (.node (.node (.node (.node (.node .leaf 43242 43242 (230, []) .leaf) 43243 43243 (230, []) .leaf) 43244 43244 (230, []) (.node (.node .leaf 43245 43245 (230, []) .leaf) 43246 43246 (230, []) .leaf)) 43247 43247 (230, []) (.node (.node (.node .leaf 43248 43248 (230, []) .leaf) 43249 43249 (230, []) .leaf) 43307 43307 (220, []) (.node (.node .leaf 43308 43308 (220, []) .leaf) 43309 43309 (220, []) .leaf))) 43347 43347 (9, []) (.node (.node (.node (.node .leaf 43443 43443 (7, []) .leaf) 43456 43456 (9, []) .leaf) 43696 43696 (230, []) (.node (.node .leaf 43698 43698 (230, []) .leaf) 43699 43699 (230, []) .leaf)) 43700 43700 (220, []) (.node (.node (.node .leaf 43703 43703 (230, []) .leaf) 43704 43704 (230, []) .leaf) 43710 43710 (230, []) (.node .leaf 43711 43711 (230, []) .leaf))))))) 43713 43713 (230, []) (.node (.node (.node (.node (.node (.node (.node (.node .leaf 43766 43766 (9, []) .leaf) 44013 44013 (9, []) .leaf) 63744 63744 (0, [35912]) (.node (.node .leaf 63745 63745 (0, [26356]) .leaf) 63746 63746 (0, [36554]) .leaf)) 63747 63747 (0, [36040]) (.node (.node (.node .leaf 63748 63748 (0, [28369]) .leaf) 63749 63749 (0, [20018]) .leaf) 63750 63750 (0, [21477]) (.node (.node .leaf 63751 63751 (0, [40860]) .leaf) 63752 63752 (0, [40860]) .leaf))) 63753 63753 (0, [22865]) (.node (.node (.node (.node .leaf 63754 63754 (0, [37329]) .leaf) 63755 63755 (0, [21895]) .leaf) 63756 63756 (0, [22856]) (.node (.node .leaf 63757 63757 (0, [25078]) .leaf) 63758 63758 (0, [30313]) .leaf)) 63759 63759 (0, [32645]) (.node (.node (.node .leaf 63760 63760 (0, [34367]) .leaf) 63761 63761 (0, [34746]) .leaf) 63762 63762 (0, [35064]) (.node .leaf 63763 63763 (0, [37007]) .leaf)))) 63764 63764 (0, [27138]) (.node (.node (.node (.node (.node .leaf 63765 63765 (0, [27931]) .leaf) 63766 63766 (0, [28889]) .leaf) 63767 63767 (0, [29662]) (.node (.node .leaf 63768 63768 (0, [33853]) .leaf) 63769 63769 (0, [37226]) .leaf)) 63770 63770 (0, [39409]) (.node (.node (.node .leaf 63771 63771 (0, [20098]) .leaf) 63772 63772 (0, [21365]) .leaf) 63773 63773 (0, [27396]) (.node (.node .leaf 63774 63774 (0, [29211]) .leaf) 63775 63775 (0, [34349]) .leaf))) 63776 63776 (0, [40478]) (.node (.node (.node (.node .leaf 63777 63777 (0, [23888]) .leaf) 63778 63778 (0, [28651]) .leaf) 63779 63779 (0, [34253]) (.node (.node .leaf 63780 63780 (0, [35172]) .leaf) 63781 63781 (0, [25289]) .leaf)) 63782 63782 (0, [33240]) (.node (.node (.node .leaf 63783 63783 (0, [34847]) .leaf) 63784 63784 (0, [24266]) .leaf) 63785 63785 (0, [26391]) (.node .leaf 63786 63786 (0, [28010]) .leaf))))) 63787 63787 (0, [29436]) (.node (.node (.node (.node (.node (.node .leaf 63788 63788 (0, [37070]) .leaf) 63789 63789 (0, [20358]) .leaf) 63790 63790 (0, [20919]) (.node (.node .leaf 63791 63791 (0, [21214]) .leaf) 63792 63792 (0, [25796]) .leaf)) 63793 63793 (0, [27347]) (.node (.node (.node .leaf 63794 63794 (0, [29200]) .leaf) 63795 63795 (0, [30439]) .leaf) 63796 63796 (0, [32769]) (.node (.node .leaf 63797 63797 (0, [34310]) .leaf) 63798 63798 (0, [34396]) .leaf))) 63799 63799 (0, [36335]) (.node (.node (.node (.node .leaf 63800 63800 (0, [38706]) .leaf) 63801 63801 (0, [39791]) .leaf) 63802 63802 (0, [40442]) (.node (.node .leaf 63803 63803 (0, [30860]) .leaf) 63804 63804 (0, [31103]) .leaf)) 63805 63805 (0, [32160]) (.node (.node (.node .leaf 63806 63806 (0, [33737]) .leaf) 63807 63807 (0, [37636]) .leaf) 63808 63808 (0, [40575]) (.node .leaf 63809 63809 (0, [35542]) .leaf)))) 63810 63810 (0, [22751]) (.node (.node (.node (.node (.node .leaf 63811 63811 (0, [24324]) .leaf) 63812 63812 (0, [31840]) .leaf) 63813 63813 (0, [32894]) (.node (.node .leaf 63814 63814 (0, [29282]) .leaf) 63815 63815 (0, [30922]) .leaf)) 63816 63816 (0, [36034]) (.node (.node (.node .leaf 63817 63817 (0, [38647]) .leaf) 63818 63818 (0, [22744]) .leaf) 63819 63819 (0, [23650]) (.node (.node .leaf 63820 63820 (0, [27155]) .leaf) 63821 63821 (0, [28122]) .leaf))) 63822 63822 (0, [28431]) (.node (.node (.node (.node .leaf 63823 63823 (0, [32047]) .leaf) 63824 63824 (0, [32311]) .leaf) 63825 63825 (0, [38475]) (.node (.node .leaf 63826 63826 (0, [21202]) .leaf) 63827 63827 (0, [32907]) .leaf)) 63828 63828 (0, [20956]) (.node (.node (.node .leaf 63829 63829 (0, [20940]) .leaf) 63830 63830 (0, [31260]) .leaf) 63831 63831 (0, [32190]) (.node .leaf 63832 63832 (0, [33777]) .leaf)))))) 63833 63833 (0, [38517]) (.node (.node (.node (.node (.node (.node (.node .leaf 63834 63834 (0, [35712]) .leaf) 63835 63835 (0, [25295]) .leaf) 63836 63836 (0, [27138]) (.node (.node .leaf 63837 63837 (0, [35582]) .leaf) 63838 63838 (0, [20025]) .leaf)) 63839 63839 (0, [23527]) (.node (.node (.node .leaf 63840 63840 (0, [24594]) .leaf) 63841 63841 (0, [29575]) .leaf) 63842 63842 (0, [30064]) (.node (.node .leaf 63843 63843 (0, [21271]) .leaf) 63844 63844 (0, [30971]) .leaf))) 63845 63845 (0, [20415]) (.node (.node (.node (.node .leaf 63846 63846 (0, [24489]) .leaf) 63847 63847 (0, [19981]) .leaf) 63848 63848 (0, [27852]) (.node (.node .leaf 63849 63849 (0, [25976]) .leaf) 63850 63850 (0, [32034]) .leaf)) 63851 63851 (0, [21443]) (.node (.node (.node .leaf 63852 63852 (0, [22622]) .leaf) 63853 63853 (0, [30465]) .leaf) 63854 63854 (0, [33865]) (.node .leaf 63855 63855 (0, [35498]) .leaf)))) 63856 63856 (0, [27578]) (.node (.node (.node (.node (.node .leaf 63857 63857 (0, [36784]) .leaf) 63858 63858 (0, [27784]) .leaf) 63859 63859 (0, [25342]) (.node (.node .leaf 63860 63860 (0, [33509]) .leaf) 63861 63861 (0, [25504]) .leaf)) 63862 63862 (0, [30053]) (.node (.node (.node .leaf 63863 63863 (0, [20142]) .leaf) 63864 63864 (0, [20841]) .leaf) 63865 63865 (0, [20937]) (.node (.node .leaf 63866 63866 (0, [26753]) .leaf) 63867 63867 (0, [31975]) .leaf))) 63868 63868 (0, [33391]) (.node (.node (.node (.node .leaf 63869 63869 (0, [35538]) .leaf) 63870 63870 (0, [37327]) .leaf) 63871 63871 (0, [21237]) (.node (.node .leaf 63872 63872 (0, [21570]) .leaf) 63873 63873 (0, [22899]) .leaf)) 63874 63874 (0, [24300]) (.node (.node (.node .leaf 63875 63875 (0, [26053]) .leaf) 63876 63876 (0, [28670]) .leaf) 63877 63877 (0, [31018]) (.node .leaf 63878 63878 (0, [38317]) .leaf))))) 63879 63879 (0, [39530]) (.node (.node (.node (.node (.node (.node .leaf 63880 63880 (0, [40599]) .leaf) 63881 63881 (0, [40654]) .leaf) 63882 63882 (0, [21147]) (.node (.node .leaf 63883 63883 (0, [26310]) .leaf) 63884 63884 (0, [27511]) .leaf)) 63885 63885 (0, [36706]) (.node (.node (.node .leaf 63886 63886 (0, [24180]) .leaf) 63887 63887 (0, [24976]) .leaf) 63888 63888 (0, [25088]) (.node (.node .leaf 63889 63889 (0, [25754]) .leaf) 63890 63890 (0, [28451]) .leaf))) 63891 63891 (0, [29001]) (.node (.node (.node (.node .leaf 63892 63892 (0, [29833]) .leaf) 63893 63893 (0, [31178]) .leaf) 63894 63894 (0, [32244]) (.node (.node .leaf 63895 63895 (0, [32879]) .leaf) 63896 63896 (0, [36646]) .leaf)) 63897 63897 (0, [34030]) (.node (.node (.node .leaf 63898 63898 (0, [36899]) .leaf) 63899 63899 (0, [37706]) .leaf) 63900 63900 (0, [21015]) (.node .leaf 63901 63901 (0, [21155]) .leaf)))) 63902 63902 (0, [21693]) (.node (.node (.node (.node (.node .leaf 63903 63903 (0, [28872]) .leaf) 63904 63904 (0, [35010]) .leaf) 63905 63905 (0, [35498]) (.node (.node .leaf 63906 63906 (0, [24265]) .leaf) 63907 63907 (0, [24565]) .leaf)) 63908 63908 (0, [25467]) (.node (.node (.node .leaf 63909 63909 (0, [27566]) .leaf) 63910 63910 (0, [31806]) .leaf) 63911 63911 (0, [29557]) (.node .leaf 63912 63912 (0, [20196]) .leaf))) 63913 63913 (0, [22265]) (.node (.node (.node (.node .leaf 63914 63914 (0, [23527]) .leaf) 63915 63915 (0, [23994]) .leaf) 63916 63916 (0, [24604]) (.node (.node .leaf 63917 63917 (0, [29618]) .leaf) 63918 63918 (0, [29801]) .leaf)) 63919 63919 (0, [32666]) (.node (.node (.node .leaf 63920 63920 (0, [32838]) .leaf) 63921 63921 (0, [37428]) .leaf) 63922 63922 (0, [38646]) (.node .leaf 63923 63923 (0, [38728]) .leaf))))))))

def unicodeData5 : RTree (Nat × List Nat) := (.node (.node (.node (.node (.node (.node (.node (.node (.node .leaf 63925 63925 (0, [20363]) .leaf) 63926 63926 (0, [31150]) .leaf) 63927 63927 (0, [37300]) (.node (.node .leaf 63928 63928 (0, [38584]) .leaf) 63929 63929 (0, [24801]) .leaf)) 63930 63930 (0, [20102]) (.node (.node (.node .leaf 63931 63931 (0, [20698]) .leaf) 63932 63932 (0, [23534]) .leaf) 63933 63933 (0, [23615]) (.node (.node .leaf 63934 63934 (0, [26009]) .leaf) 63935 63935 (0, [27138]) .leaf))) 63936 63936 (0, [29134]) (.node (.node (.node (.node .leaf 63937 63937 (0, [30274]) .leaf) 63938 63938 (0, [34044]) .leaf) 63939 63939 (0, [36988]) (.node (.node .leaf 63940 63940 (0, [40845]) .leaf) 63941 63941 (0, [26248]) .leaf)) 63942 63942 (0, [38446]) (.node (.node (.node .leaf 63943 63943 (0, [21129]) .leaf) 63944 63944 (0, [26491]) .leaf) 63945 63945 (0, [26611]) (.node .leaf 63946 63946 (0, [27969]) .leaf)))) 63947 63947 (0, [28316]) (.node (.node (.node (.node (.node .leaf 63948 63948 (0, [29705]) .leaf) 63949 63949 (0, [30041]) .leaf) 63950 63950 (0, [30827]) (.node (.node .leaf 63951 63951 (0, [32016]) .leaf) 63952 63952 (0, [39006]) .leaf)) 63953 63953 (0, [20845]) (.node (.node (.node .leaf 63954 63954 (0, [25134]) .leaf) 63955 63955 (0, [38520]) .leaf) 63956 63956 (0, [20523]) (.node (.node .leaf 63957 63957 (0, [23833]) .leaf) 63958 63958 (0, [28138]) .leaf))) 63959 63959 (0, [36650]) (.node (.node (.node (.node .leaf 63960 63960 (0, [24459]) .leaf) 63961 63961 (0, [24900]) .leaf) 63962 63962 (0, [26647]) (.node (.node .leaf 63963 63963 (0, [29575]) .leaf) 63964 63964 (0, [38534]) .leaf)) 63965 63965 (0, [21033]) (.node (.node (.node .leaf 63966 63966 (0, [21519]) .leaf) 63967 63967 (0, [23653]) .leaf) 63968 63968 (0, [26131]) (.node .leaf 63969 63969 (0, [26446]) .leaf))))) 63970 63970 (0, [26792]) (.node (.node (.node (.node (.node (.node .leaf 63971 63971 (0, [27877]) .leaf) 63972 63972 (0, [29702]) .leaf) 63973 63973 (0, [30178]) (.node (.node .leaf 63974 63974 (0, [32633]) .leaf) 63975 63975 (0, [35023]) .leaf)) 63976 63976 (0, [35041]) (.node (.node (.node .leaf 63977 63977 (0, [37324]) .leaf) 63978 63978 (0, [38626]) .leaf) 63979 63979 (0, [21311]) (.node (.node .leaf 63980 63980 (0, [28346]) .leaf) 63981 63981 (0, [21533]) .leaf))) 63982 63982 (0, [29136]) (.node (.node (.node (.node .leaf 63983 63983 (0, [29848]) .leaf) 63984 63984 (0, [34298]) .leaf) 63985 63985 (0, [38563]) (.node (.node .leaf 63986 63986 (0, [40023]) .leaf) 63987 63987 (0, [40607]) .leaf)) 63988 63988 (0, [26519]) (.node (.node (.node .leaf 63989 63989 (0, [28107]) .leaf) 63990 63990 (0, [33256]) .leaf) 63991 63991 (0, [31435]) (.node .leaf 63992 63992 (0, [31520]) .leaf)))) 63993 63993 (0, [31890]) (.node (.node (.node (.node (.node .leaf 63994 63994 (0, [29376]) .leaf) 63995 63995 (0, [28825]) .leaf) 63996 63996 (0, [35672]) (.node (.node .leaf 63997 63997 (0, [20160]) .leaf) 63998 63998 (0, [33590]) .leaf)) 63999 63999 (0, [21050]) (.node (.node (.node .leaf 64000 64000 (0, [20999]) .leaf) 64001 64001 (0, [24230]) .leaf) 64002 64002 (0, [25299]) (.node (.node .leaf 64003 64003 (0, [31958]) .leaf) 64004 64004 (0, [23429]) .leaf))) 64005 64005 (0, [27934]) (.node (.node (.node (.node .leaf 64006 64006 (0, [26292]) .leaf) 64007 64007 (0, [36667]) .leaf) 64008 64008 (0, [34892]) (.node (.node .leaf 64009 64009 (0, [38477]) .leaf) 64010 64010 (0, [35211]) .leaf)) 64011 64011 (0, [24275]) (.node (.node (.node .leaf 64012 64012 (0, [20800]) .leaf) 64013 64013 (0, [21952]) .leaf) 64016 64016 (0, [22618]) (.node .leaf 64018 64018 (0, [26228]) .leaf)))))) 64021 64021 (0, [20958]) (.node (.node (.node (.node (.node (.node (.node .leaf 64022 64022 (0, [29482]) .leaf) 64023 64023 (0, [30410]) .leaf) 64024 64024 (0, [31036]) (.node (.node .leaf 64025 64025 (0, [31070]) .leaf) 64026 64026 (0, [31077]) .leaf)) 64027 64027 (0, [31119]) (.node (.node (.node .leaf 64028 64028 (0, [38742]) .leaf) 64029 64029 (0, [31934]) .leaf) 64030 64030 (0, [32701]) (.node (.node .leaf 64032 64032 (0, [34322]) .leaf) 64034 64034 (0, [35576]) .leaf))) 64037 64037 (0, [36920]) (.node (.node (.node (.node .leaf 64038 64038 (0, [37117]) .leaf) 64042 64042 (0, [39151]) .leaf) 64043 64043 (0, [39164]) (.node (.node .leaf 64044 64044 (0, [39208]) .leaf) 64045 64045 (0, [40372]) .leaf)) 64046 64046 (0, [37086]) (.node (.node (.node .leaf 64047 64047 (0, [38583]) .leaf) 64048 64048 (0, [20398]) .leaf) 64049 64049 (0, [20711]) (.node .leaf 64050 64050 (0, [20813]) .leaf)))) 64051 64051 (0, [21193]) (.node (.node (.node (.node (.node .leaf 64052 64052 (0, [21220]) .leaf) 64053 64053 (0, [21329]) .leaf) 64054 64054 (0, [21917]) (.node (.node .leaf 64055 64055 (0, [22022]) .leaf) 64056 64056 (0, [22120]) .leaf)) 64057 64057 (0, [22592]) (.node (.node (.node .leaf 64058 64058 (0, [22696]) .leaf) 64059 64059 (0, [23652]) .leaf) 64060 64060 (0, [23662]) (.node (.node .leaf 64061 64061 (0, [24724]) .leaf) 64062 64062 (0, [24936]) .leaf))) 64063 64063 (0, [24974]) (.node (.node (.node (.node .leaf 64064 64064 (0, [25074]) .leaf) 64065 64065 (0, [25935]) .leaf) 64066 64066 (0, [26082]) (.node (.node .leaf 64067 64067 (0, [26257]) .leaf) 64068 64068 (0, [26757]) .leaf)) 64069 64069 (0, [28023]) (.node (.node (.node .leaf 64070 64070 (0, [28186]) .leaf) 64071 64071 (0, [28450]) .leaf) 64072 64072 (0, [29038]) (.node .leaf 64073 64073 (0, [29227]) .leaf))))) 64074 64074 (0, [29730]) (.node (.node (.node (.node (.node (.node .leaf 64075 64075 (0, [30865]) .leaf) 64076 64076 (0, [31038]) .leaf) 64077 64077 (0, [31049]) (.node (.node .leaf 64078 64078 (0, [31048]) .leaf) 64079 64079 (0, [31056]) .leaf)) 64080 64080 (0, [31062]) (.node (.node (.node .leaf 64081 64081 (0, [31069]) .leaf) 64082 64082 (0, [31117]) .leaf) 64083 64083 (0, [31118]) (.node (.node .leaf 64084 64084 (0, [31296]) .leaf) 64085 64085 (0, [31361]) .leaf))) 64086 64086 (0, [31680]) (.node (.node (.node (.node .leaf 64087 64087 (0, [32244]) .leaf) 64088 64088 (0, [32265]) .leaf) 64089 64089 (0, [32321]) (.node (.node .leaf 64090 64090 (0, [32626]) .leaf) 64091 64091 (0, [32773]) .leaf)) 64092 64092 (0, [33261]) (.node (.node (.node .leaf 64093 64093 (0, [33401]) .leaf) 64094 64094 (0, [33401]) .leaf) 64095 64095 (0, [33879]) (.node .leaf 64096 64096 (0, [35088]) .leaf)))) 64097 64097 (0, [35222]) (.node (.node (.node (.node (.node .leaf 64098 64098 (0, [35585]) .leaf) 64099 64099 (0, [35641]) .leaf) 64100 64100 (0, [36051]) (.node (.node .leaf 64101 64101 (0, [36104]) .leaf) 64102 64102 (0, [36790]) .leaf)) 64103 64103 (0, [36920]) (.node (.node (.node .leaf 64104 64104 (0, [38627]) .leaf) 64105 64105 (0, [38911]) .leaf) 64106 64106 (0, [38971]) (.node .leaf 64107 64107 (0, [24693]) .leaf))) 64108 64108 (0, [148206]) (.node (.node (.node (.node .leaf 64109 64109 (0, [33304]) .leaf) 64112 64112 (0, [20006]) .leaf) 64113 64113 (0, [20917]) (.node (.node .leaf 64114 64114 (0, [20840]) .leaf) 64115 64115 (0, [20352]) .leaf)) 64116 64116 (0, [20805]) (.node (.node (.node .leaf 64117 64117 (0, [20864]) .leaf) 64118 64118 (0, [21191]) .leaf) 64119 64119 (0, [21242]) (.node .leaf 64120 64120 (0, [21917]) .leaf))))))) 64121 64121 (0, [21845]) (.node (.node (.node (.node (.node (.node (.node (.node .leaf 64122 64122 (0, [21913]) .leaf) 64123 64123 (0, [21986]) .leaf) 64124 64124 (0, [22618]) (.node (.node .leaf 64125 64125 (0, [22707]) .leaf) 64126 64126 (0, [22852]) .leaf)) 64127 64127 (0, [22868]) (.node (.node (.node .leaf 64128 64128 (0, [23138]) .leaf) 64129 64129 (0, [23336]) .leaf) 64130 64130 (0, [24274]) (.node (.node .leaf 64131 64131 (0, [24281]) .leaf) 64132 64132 (0, [24425]) .leaf))) 64133 64133 (0, [24493]) (.node (.node (.node (.node .leaf 64134 64134 (0, [24792]) .leaf) 64135 64135 (0, [24910]) .leaf) 64136 64136 (0, [24840]) (.node (.node .leaf 64137 64137 (0, [24974]) .leaf) 64138 64138 (0, [24928]) .leaf)) 64139 64139 (0, [25074]) (.node (.node (.node .leaf 64140 64140 (0, [25140]) .leaf) 64141 64141 (0, [25540]) .leaf) 64142 64142 (0, [25628]) (.node .leaf 64143 64143 (0, [25682]) .leaf)))) 64144 64144 (0, [25942]) (.node (.node (.node (.node (.node .leaf 64145 64145 (0, [26228]) .leaf) 64146 64146 (0, [26391]) .leaf) 64147 64147 (0, [26395]) (.node (.node .leaf 64148 64148 (0, [26454]) .leaf) 64149 64149 (0, [27513]) .leaf)) 64150 64150 (0, [27578]) (.node (.node (.node .leaf 64151 64151 (0, [27969]) .leaf) 64152 64152 (0, [28379]) .leaf) 64153 64153 (0, [28363]) (.node (.node .leaf 64154 64154 (0, [28450]) .leaf) 64155 64155 (0, [28702]) .leaf))) 64156 64156 (0, [29038]) (.node (.node (.node (.node .leaf 64157 64157 (0, [30631]) .leaf) 64158 64158 (0, [29237]) .leaf) 64159 64159 (0, [29359]) (.node (.node .leaf 64160 64160 (0, [29482]) .leaf) 64161 64161 (0, [29809]) .leaf)) 64162 64162 (0, [29958]) (.node (.node (.node .leaf 64163 64163 (0, [30011]) .leaf) 64164 64164 (0, [30237]) .leaf) 64165 64165 (0, [30239]) (.node .leaf 64166 64166 (0, [30410]) .leaf))))) 64167 64167 (0, [30427]) (.node (.node (.node (.node (.node (.node .leaf 64168 64168 (0, [30452]) .leaf) 64169 64169 (0, [30538]) .leaf) 64170 64170 (0, [30528]) (.node (.node .leaf 64171 64171 (0, [30924]) .leaf) 64172 64172 (0, [31409]) .leaf)) 64173 64173 (0, [31680]) (.node (.node (.node .leaf 64174 64174 (0, [31867]) .leaf) 64175 64175 (0, [32091]) .leaf) 64176 64176 (0, [32244]) (.node (.node .leaf 64177 64177 (0, [32574]) .leaf) 64178 64178 (0, [32773]) .leaf))) 64179 64179 (0, [33618]) (.node (.node (.node (.node .leaf 64180 64180 (0, [33775]) .leaf) 64181 64181 (0, [34681]) .leaf) 64182 64182 (0, [35137]) (.node (.node .leaf 64183 64183 (0, [35206]) .leaf) 64184 64184 (0, [35222]) .leaf)) 64185 64185 (0, [35519]) (.node (.node (.node .leaf 64186 64186 (0, [35576]) .leaf) 64187 64187 (0, [35531]) .leaf) 64188 64188 (0, [35585]) (.node .leaf 64189 64189 (0, [35582]) .leaf)))) 64190 64190 (0, [35565]) (.node (.node (.node (.node (.node .leaf 64191 64191 (0, [35641]) .leaf) 64192 64192 (0, [35722]) .leaf) 64193 64193 (0, [36104]) (.node (.node .leaf 64194 64194 (0, [36664]) .leaf) 64195 64195 (0, [36978]) .leaf)) 64196 64196 (0, [37273]) (.node (.node (.node .leaf 64197 64197 (0, [37494]) .leaf) 64198 64198 (0, [38524]) .leaf) 64199 64199 (0, [38627]) (.node (.node .leaf 64200 64200 (0, [38742]) .leaf) 64201 64201 (0, [38875]) .leaf))) 64202 64202 (0, [38911]) (.node (.node (.node (.node .leaf 64203 64203 (0, [38923]) .leaf) 64204 64204 (0, [38971]) .leaf) 64205 64205 (0, [39698]) (.node (.node .leaf 64206 64206 (0, [40860]) .leaf) 64207 64207 (0, [141386]) .leaf)) 64208 64208 (0, [141380]) (.node (.node (.node .leaf 64209 64209 (0, [144341]) .leaf) 64210 64210 (0, [15261]) .leaf) 64211 64211 (0, [16408]) (.node .leaf 64212 64212 (0, [16441]) .leaf)))))) 64213 64213 (0, [152137]) (.node (.node (.node (.node (.node (.node (.node .leaf 64214 64214 (0, [154832]) .leaf) 64215 64215 (0, [163539]) .leaf) 64216 64216 (0, [40771]) (.node (.node .leaf 64217 64217 (0, [40846]) .leaf) 64285 64285 (0, [1497, 1460]) .leaf)) 64286 64286 (26, []) (.node (.node (.node .leaf 64287 64287 (0, [1522, 1463]) .leaf) 64298 64298 (0, [1513, 1473]) .leaf) 64299 64299 (0, [1513, 1474]) (.node (.node .leaf 64300 64300 (0, [64329, 1473]) .leaf) 64301 64301 (0, [64329, 1474]) .leaf))) 64302 64302 (0, [1488, 1463]) (.node (.node (.node (.node .leaf 64303 64303 (0, [1488, 1464]) .leaf) 64304 64304 (0, [1488, 1468]) .leaf) 64305 64305 (0, [1489, 1468]) (.node (.node .leaf 64306 64306 (0, [1490, 1468]) .leaf) 64307 64307 (0, [1491, 1468]) .leaf)) 64308 64308 (0, [1492, 1468]) (.node (.node (.node .leaf 64309 64309 (0, [1493, 1468]) .leaf) 64310 64310 (0, [1494, 1468]) .leaf) 64312 64312 (0, [1496, 1468]) (.node .leaf 64313 64313 (0, [1497, 1468]) .leaf)))) 64314 64314 (0, [1498, 1468]) (.node (.node (.node (.node (.node .leaf 64315 64315 (0, [1499, 1468]) .leaf) 64316 64316 (0, [1500, 1468]) .leaf) 64318 64318 (0, [1502, 1468]) (.node (.node .leaf 64320 64320 (0, [1504, 1468]) .leaf) 64321 64321 (0, [1505, 1468]) .leaf)) 64323 64323 (0, [1507, 1468]) (.node (.node (.node .leaf 64324 64324 (0, [1508, 1468]) .leaf) 64326 64326 (0, [1510, 1468]) .leaf) 64327 64327 (0, [1511, 1468]) (.node (.node .leaf 64328 64328 (0, [1512, 1468]) .leaf) 64329 64329 (0, [1513, 1468]) .leaf))) 64330 64330 (0, [1514, 1468]) (.node (.node (.node (.node .leaf 64331 64331 (0, [1493, 1465]) .leaf) 64332 64332 (0, [1489, 1471]) .leaf) 64333 64333 (0, [1499, 1471]) (.node (.node .leaf 64334 64334 (0, [1508, 1471]) .leaf) 65056 65056 (230, []) .leaf)) 65057 65057 (230, []) (.node (.node (.node .leaf 65058 65058 (230, []) .leaf) 65059 65059 (230, []) .leaf) 65060 65060 (230, []) (.node .leaf 65061 65061 (230, []) .leaf))))) 65062 65062 (230, []) (.node (.node (.node (.node (.node (.node .leaf 65063 65063 (220, []) .leaf) 65064 65064 (220, []) .leaf) 65065 65065 (220, []) (.node (.node .leaf 65066 65066 (220, []) .leaf) 65067 65067 (220, []) .leaf)) 65068 65068 (220, []) (.node (.node (.node .leaf 65069 65069 (220, []) .leaf) 65070 65070 (230, []) .leaf) 65071 65071 (230, []) (.node (.node .leaf 66045 66045 (220, []) .leaf) 66272 66272 (220, []) .leaf))) 66422 66422 (230, []) (.node (.node (.node (.node .leaf 66423 66423 (230, []) .leaf) 66424 66424 (230, []) .leaf) 66425 66425 (230, []) (.node (.node .leaf 66426 66426 (230, []) .leaf) 68109 68109 (220, []) .leaf)) 68111 68111 (230, []) (.node (.node (.node .leaf 68152 68152 (230, []) .leaf) 68153 68153 (1, []) .leaf) 68154 68154 (220, []) (.node .leaf 68159 68159 (9, []) .leaf)))) 68325 68325 (230, []) (.node (.node (.node (.node (.node .leaf 68326 68326 (220, []) .leaf) 68900 68900 (230, []) .leaf) 68901 68901 (230, []) (.node (.node .leaf 68902 68902 (230, []) .leaf) 68903 68903 (230, []) .leaf)) 69291 69291 (230, []) (.node (.node (.node .leaf 69292 69292 (230, []) .leaf) 69446 69446 (220, []) .leaf) 69447 69447 (220, []) (.node .leaf 69448 69448 (230, []) .leaf))) 69449 69449 (230, []) (.node (.node (.node (.node .leaf 69450 69450 (230, []) .leaf) 69451 69451 (220, []) .leaf) 69452 69452 (230, []) (.node (.node .leaf 69453 69453 (220, []) .leaf) 69454 69454 (220, []) .leaf)) 69455 69455 (220, []) (.node (.node (.node .leaf 69456 69456 (220, []) .leaf) 69702 69702 (9, []) .leaf) 69759 69759 (9, []) (.node .leaf 69786 69786 (0, [69785, 69818]) .leaf))))))))

def unicodeData6 : RTree (Nat × List Nat) := (.node (.node (.node (.node (.node (.node (.node (.node (.node .leaf 69803 69803 (0, [69797, 69818]) .leaf) 69817 69817 (9, []) .leaf) 69818 69818 (7, []) (.node (.node .leaf 69888 69888 (230, []) .leaf) 69889 69889 (230, []) .leaf)) 69890 69890 (230, []) (.node (.node (.node .leaf 69934 69934 (0, [69937, 69927]) .leaf) 69935 69935 (0, [69938, 69927]) .leaf) 69939 69939 (9, []) (.node (.node .leaf 69940 69940 (9, []) .leaf) 70003 70003 (7, []) .leaf))) 70080 70080 (9, []) (.node (.node (.node (.node .leaf 70090 70090 (7, []) .leaf) 70197 70197 (9, []) .leaf) 70198 70198 (7, []) (.node (.node .leaf 70377 70377 (7, []) .leaf) 70378 70378 (9, []) .leaf)) 70459 70459 (7, []) (.node (.node (.node .leaf 70460 70460 (7, []) .leaf) 70475 70475 (0, [70471, 70462]) .leaf) 70476 70476 (0, [70471, 70487]) (.node .leaf 70477 70477 (9, []) .leaf)))) 70502 70502 (230, []) (.node (.node (.node (.node (.node .leaf 70503 70503 (230, []) .leaf) 70504 70504 (230, []) .leaf) 70505 70505 (230, []) (.node (.node .leaf 70506 70506 (230, []) .leaf) 70507 70507 (230, []) .leaf)) 70508 70508 (230, []) (.node (.node (.node .leaf 70512 70512 (230, []) .leaf) 70513 70513 (230, []) .leaf) 70514 70514 (230, []) (.node (.node .leaf 70515 70515 (230, []) .leaf) 70516 70516 (230, []) .leaf))) 70722 70722 (9, []) (.node (.node (.node (.node .leaf 70726 70726 (7, []) .leaf) 70750 70750 (230, []) .leaf) 70843 70843 (0, [70841, 70842]) (.node (.node .leaf 70844 70844 (0, [70841, 70832]) .leaf) 70846 70846 (0, [70841, 70845]) .leaf)) 70850 70850 (9, []) (.node (.node (.node .leaf 70851 70851 (7, []) .leaf) 71098 71098 (0, [71096, 71087]) .leaf) 71099 71099 (0, [71097, 71087]) (.node .leaf 71103 71103 (9, []) .leaf))))) 71104 71104 (7, []) (.node (.node (.node (.node (.node (.node .leaf 71231 71231 (9, []) .leaf) 71350 71350 (9, []) .leaf) 71351 71351 (7, []) (.node (.node .leaf 71467 71467 (9, []) .leaf) 71737 71737 (9, []) .leaf)) 71738 71738 (7, []) (.node (.node (.node .leaf 71992 71992 (0, [71989, 71984]) .leaf) 71997 71997 (9, []) .leaf) 71998 71998 (9, []) (.node (.node .leaf 72003 72003 (7, []) .leaf) 72160 72160 (9, []) .leaf))) 72244 72244 (9, []) (.node (.node (.node (.node .leaf 72263 72263 (9, []) .leaf) 72345 72345 (9, []) .leaf) 72767 72767 (9, []) (.node (.node .leaf 73026 73026 (7, []) .leaf) 73028 73028 (9, []) .leaf)) 73029 73029 (9, []) (.node (.node (.node .leaf 73111 73111 (9, []) .leaf) 92912 92912 (1, []) .leaf) 92913 92913 (1, []) (.node .leaf 92914 92914 (1, []) .leaf)))) 92915 92915 (1, []) (.node (.node (.node (.node (.node .leaf 92916 92916 (1, []) .leaf) 92976 92976 (230, []) .leaf) 92977 92977 (230, []) (.node (.node .leaf 92978 92978 (230, []) .leaf) 92979 92979 (230, []) .leaf)) 92980 92980 (230, []) (.node (.node (.node .leaf 92981 92981 (230, []) .leaf) 92982 92982 (230, []) .leaf) 94192 94192 (6, []) (.node (.node .leaf 94193 94193 (6, []) .leaf) 113822 113822 (1, []) .leaf))) 119134 119134 (0, [119127, 119141]) (.node (.node (.node (.node .leaf 119135 119135 (0, [119128, 119141]) .leaf) 119136 119136 (0, [119135, 119150]) .leaf) 119137 119137 (0, [119135, 119151]) (.node (.node .leaf 119138 119138 (0, [119135, 119152]) .leaf) 119139 119139 (0, [119135, 119153]) .leaf)) 119140 119140 (0, [119135, 119154]) (.node (.node (.node .leaf 119141 119141 (216, []) .leaf) 119142 119142 (216, []) .leaf) 119143 119143 (1, []) (.node .leaf 119144 119144 (1, []) .leaf)))))) 119145 119145 (1, []) (.node (.node (.node (.node (.node (.node (.node .leaf 119149 119149 (226, []) .leaf) 119150 119150 (216, []) .leaf) 119151 119151 (216, []) (.node (.node .leaf 119152 119152 (216, []) .leaf) 119153 119153 (216, []) .leaf)) 119154 119154 (216, []) (.node (.node (.node .leaf 119163 119163 (220, []) .leaf) 119164 119164 (220, []) .leaf) 119165 119165 (220, []) (.node (.node .leaf 119166 119166 (220, []) .leaf) 119167 119167 (220, []) .leaf))) 119168 119168 (220, []) (.node (.node (.node (.node .leaf 119169 119169 (220, []) .leaf) 119170 119170 (220, []) .leaf) 119173 119173 (230, []) (.node (.node .leaf 119174 119174 (230, []) .leaf) 119175 119175 (230, []) .leaf)) 119176 119176 (230, []) (.node (.node (.node .leaf 119177 119177 (230, []) .leaf) 119178 119178 (220, []) .leaf) 119179 119179 (220, []) (.node .leaf 119210 119210 (230, []) .leaf)))) 119211 119211 (230, []) (.node (.node (.node (.node (.node .leaf 119212 119212 (230, []) .leaf) 119213 119213 (230, []) .leaf) 119227 119227 (0, [119225, 119141]) (.node (.node .leaf 119228 119228 (0, [119226, 119141]) .leaf) 119229 119229 (0, [119227, 119150]) .leaf)) 119230 119230 (0, [119228, 119150]) (.node (.node (.node .leaf 119231 119231 (0, [119227, 119151]) .leaf) 119232 119232 (0, [119228, 119151]) .leaf) 119362 119362 (230, []) (.node (.node .leaf 119363 119363 (230, []) .leaf) 119364 119364 (230, []) .leaf))) 122880 122880 (230, []) (.node (.node (.node (.node .leaf 122881 122881 (230, []) .leaf) 122882 122882 (230, []) .leaf) 122883 122883 (230, []) (.node (.node .leaf 122884 122884 (230, []) .leaf) 122885 122885 (230, []) .leaf)) 122886 122886 (230, []) (.node (.node (.node .leaf 122888 122888 (230, []) .leaf) 122889 122889 (230, []) .leaf) 122890 122890 (230, []) (.node .leaf 122891 122891 (230, []) .leaf))))) 122892 122892 (230, []) (.node (.node (.node (.node (.node (.node .leaf 122893 122893 (230, []) .leaf) 122894 122894 (230, []) .leaf) 122895 122895 (230, []) (.node (.node .leaf 122896 122896 (230, []) .leaf) 122897 122897 (230, []) .leaf)) 122898 122898 (230, []) (.node (.node (.node .leaf 122899 122899 (230, []) .leaf) 122900 122900 (230, []) .leaf) 122901 122901 (230, []) (.node (.node .leaf 122902 122902 (230, []) .leaf) 122903 122903 (230, []) .leaf))) 122904 122904 (230, []) (.node (.node (.node (.node .leaf 122907 122907 (230, []) .leaf) 122908 122908 (230, []) .leaf) 122909 122909 (230, []) (.node (.node .leaf 122910 122910 (230, []) .leaf) 122911 122911 (230, []) .leaf)) 122912 122912 (230, []) (.node (.node (.node .leaf 122913 122913 (230, []) .leaf) 122915 122915 (230, []) .leaf) 122916 122916 (230, []) (.node .leaf 122918 122918 (230, []) .leaf)))) 122919 122919 (230, []) (.node (.node (.node (.node (.node .leaf 122920 122920 (230, []) .leaf) 122921 122921 (230, []) .leaf) 122922 122922 (230, []) (.node (.node .leaf 123184 123184 (230, []) .leaf) 123185 123185 (230, []) .leaf)) 123186 123186 (230, []) (.node (.node (.node .leaf 123187 123187 (230, []) .leaf) 123188 123188 (230, []) .leaf) 123189 123189 (230, []) (.node .leaf 123190 123190 (230, []) .leaf))) 123628 123628 (230, []) (.node (.node (.node (.node .leaf 123629 123629 (230, []) .leaf) 123630 123630 (230, []) .leaf) 123631 123631 (230, []) (.node (.node .leaf 125136 125136 (220, []) .leaf) 125137 125137 (220, []) .leaf)) 125138 125138 (220, []) (.node (.node (.node .leaf 125139 125139 (220, []) .leaf) 125140 125140 (220, []) .leaf) 125141 125141 (220, []) (.node .leaf 125142 125142 (220, []) .leaf))))))) 125252 125252 (230, []) (.node (.node (.node (.node (.node (.node (.node (.node .leaf 125253 125253 (230, []) .leaf) 125254 125254 (230, []) .leaf) 125255 125255 (230, []) (.node (.node .leaf 125256 125256 (230, []) .leaf) 125257 125257 (230, []) .leaf)) 125258 125258 (7, []) (.node (.node (.node .leaf 194560 194560 (0, [20029]) .leaf) 194561 194561 (0, [20024]) .leaf) 194562 194562 (0, [20033]) (.node (.node .leaf 194563 194563 (0, [131362]) .leaf) 194564 194564 (0, [20320]) .leaf))) 194565 194565 (0, [20398]) (.node (.node (.node (.node .leaf 194566 194566 (0, [20411]) .leaf) 194567 194567 (0, [20482]) .leaf) 194568 194568 (0, [20602]) (.node (.node .leaf 194569 194569 (0, [20633]) .leaf) 194570 194570 (0, [20711]) .leaf)) 194571 194571 (0, [20687]) (.node (.node (.node .leaf 194572 194572 (0, [13470]) .leaf) 194573 194573 (0, [132666]) .leaf) 194574 194574 (0, [20813]) (.node .leaf 194575 194575 (0, [20820]) .leaf)))) 194576 194576 (0, [20836]) (.node (.node (.node (.node (.node .leaf 194577 194577 (0, [20855]) .leaf) 194578 194578 (0, [132380]) .leaf) 194579 194579 (0, [13497]) (.node (.node .leaf 194580 194580 (0, [20839]) .leaf) 194581 194581 (0, [20877]) .leaf)) 194582 194582 (0, [132427]) (.node (.node (.node .leaf 194583 194583 (0, [20887]) .leaf) 194584 194584 (0, [20900]) .leaf) 194585 194585 (0, [20172]) (.node (.node .leaf 194586 194586 (0, [20908]) .leaf) 194587 194587 (0, [20917]) .leaf))) 194588 194588 (0, [168415]) (.node (.node (.node (.node .leaf 194589 194589 (0, [20981]) .leaf) 194590 194590 (0, [20995]) .leaf) 194591 194591 (0, [13535]) (.node (.node .leaf 194592 194592 (0, [21051]) .leaf) 194593 194593 (0, [21062]) .leaf)) 194594 194594 (0, [21106]) (.node (.node (.node .leaf 194595 194595 (0, [21111]) .leaf) 194596 194596 (0, [13589]) .leaf) 194597 194597 (0, [21191]) (.node .leaf 194598 194598 (0, [21193]) .leaf))))) 194599 194599 (0, [21220]) (.node (.node (.node (.node (.node (.node .leaf 194600 194600 (0, [21242]) .leaf) 194601 194601 (0, [21253]) .leaf) 194602 194602 (0, [21254]) (.node (.node .leaf 194603 194603 (0, [21271]) .leaf) 194604 194604 (0, [21321]) .leaf)) 194605 194605 (0, [21329]) (.node (.node (.node .leaf 194606 194606 (0, [21338]) .leaf) 194607 194607 (0, [21363]) .leaf) 194608 194608 (0, [21373]) (.node (.node .leaf 194609 194609 (0, [21375]) .leaf) 194610 194610 (0, [21375]) .leaf))) 194611 194611 (0, [21375]) (.node (.node (.node (.node .leaf 194612 194612 (0, [133676]) .leaf) 194613 194613 (0, [28784]) .leaf) 194614 194614 (0, [21450]) (.node (.node .leaf 194615 194615 (0, [21471]) .leaf) 194616 194616 (0, [133987]) .leaf)) 194617 194617 (0, [21483]) (.node (.node (.node .leaf 194618 194618 (0, [21489]) .leaf) 194619 194619 (0, [21510]) .leaf) 194620 194620 (0, [21662]) (.node .leaf 194621 194621 (0, [21560]) .leaf)))) 194622 194622 (0, [21576]) (.node (.node (.node (.node (.node .leaf 194623 194623 (0, [21608]) .leaf) 194624 194624 (0, [21666]) .leaf) 194625 194625 (0, [21750]) (.node (.node .leaf 194626 194626 (0, [21776]) .leaf) 194627 194627 (0, [21843]) .leaf)) 194628 194628 (0, [21859]) (.node (.node (.node .leaf 194629 194629 (0, [21892]) .leaf) 194630 194630 (0, [21892]) .leaf) 194631 194631 (0, [21913]) (.node (.node .leaf 194632 194632 (0, [21931]) .leaf) 194633 194633 (0, [21939]) .leaf))) 194634 194634 (0, [21954]) (.node (.node (.node (.node .leaf 194635 194635 (0, [22294]) .leaf) 194636 194636 (0, [22022]) .leaf) 194637 194637 (0, [22295]) (.node (.node .leaf 194638 194638 (0, [22097]) .leaf) 194639 194639 (0, [22132]) .leaf)) 194640 194640 (0, [20999]) (.node (.node (.node .leaf 194641 194641 (0, [22766]) .leaf) 194642 194642 (0, [22478]) .leaf) 194643 194643 (0, [22516]) (.node .leaf 194644 194644 (0, [22541]) .leaf)))))) 194645 194645 (0, [22411]) (.node (.node (.node (.node (.node (.node (.node .leaf 194646 194646 (0, [22578]) .leaf) 194647 194647 (0, [22577]) .leaf) 194648 194648 (0, [22700]) (.node (.node .leaf 194649 194649 (0, [136420]) .leaf) 194650 194650 (0, [22770]) .leaf)) 194651 194651 (0, [22775]) (.node (.node (.node .leaf 194652 194652 (0, [22790]) .leaf) 194653 194653 (0, [22810]) .leaf) 194654 194654 (0, [22818]) (.node (.node .leaf 194655 194655 (0, [22882]) .leaf) 194656 194656 (0, [136872]) .leaf))) 194657 194657 (0, [136938]) (.node (.node (.node (.node .leaf 194658 194658 (0, [23020]) .leaf) 194659 194659 (0, [23067]) .leaf) 194660 194660 (0, [23079]) (.node (.node .leaf 194661 194661 (0, [23000]) .leaf) 194662 194662 (0, [23142]) .leaf)) 194663 194663 (0, [14062]) (.node (.node (.node .leaf 194664 194664 (0, [14076]) .leaf) 194665 194665 (0, [23304]) .leaf) 194666 194666 (0, [23358]) (.node .leaf 194667 194667 (0, [23358]) .leaf)))) 194668 194668 (0, [137672]) (.node (.node (.node (.node (.node .leaf 194669 194669 (0, [23491]) .leaf) 194670 194670 (0, [23512]) .leaf) 194671 194671 (0, [23527]) (.node (.node .leaf 194672 194672 (0, [23539]) .leaf) 194673 194673 (0, [138008]) .leaf)) 194674 194674 (0, [23551]) (.node (.node (.node .leaf 194675 194675 (0, [23558]) .leaf) 194676 194676 (0, [24403]) .leaf) 194677 194677 (0, [23586]) (.node (.node .leaf 194678 194678 (0, [14209]) .leaf) 194679 194679 (0, [23648]) .leaf))) 194680 194680 (0, [23662]) (.node (.node (.node (.node .leaf 194681 194681 (0, [23744]) .leaf) 194682 194682 (0, [23693]) .leaf) 194683 194683 (0, [138724]) (.node (.node .leaf 194684 194684 (0, [23875]) .leaf) 194685 194685 (0, [138726]) .leaf)) 194686 194686 (0, [23918]) (.node (.node (.node .leaf 194687 194687 (0, [23915]) .leaf) 194688 194688 (0, [23932]) .leaf) 194689 194689 (0, [24033]) (.node .leaf 194690 194690 (0, [24034]) .leaf))))) 194691 194691 (0, [14383]) (.node (.node (.node (.node (.node (.node .leaf 194692 194692 (0, [24061]) .leaf) 194693 194693 (0, [24104]) .leaf) 194694 194694 (0, [24125]) (.node (.node .leaf 194695 194695 (0, [24169]) .leaf) 194696 194696 (0, [14434]) .leaf)) 194697 194697 (0, [139651]) (.node (.node (.node .leaf 194698 194698 (0, [14460]) .leaf) 194699 194699 (0, [24240]) .leaf) 194700 194700 (0, [24243]) (.node (.node .leaf 194701 194701 (0, [24246]) .leaf) 194702 194702 (0, [24266]) .leaf))) 194703 194703 (0, [172946]) (.node (.node (.node (.node .leaf 194704 194704 (0, [24318]) .leaf) 194705 194705 (0, [140081]) .leaf) 194706 194706 (0, [140081]) (.node (.node .leaf 194707 194707 (0, [33281]) .leaf) 194708 194708 (0, [24354]) .leaf)) 194709 194709 (0, [24354]) (.node (.node (.node .leaf 194710 194710 (0, [14535]) .leaf) 194711 194711 (0, [144056]) .leaf) 194712 194712 (0, [156122]) (.node .leaf 194713 194713 (0, [24418]) .leaf)))) 194714 194714 (0, [24427]) (.node (.node (.node (.node (.node .leaf 194715 194715 (0, [14563]) .leaf) 194716 194716 (0, [24474]) .leaf) 194717 194717 (0, [24525]) (.node (.node .leaf 194718 194718 (0, [24535]) .leaf) 194719 194719 (0, [24569]) .leaf)) 194720 194720 (0, [24705]) (.node (.node (.node .leaf 194721 194721 (0, [14650]) .leaf) 194722 194722 (0, [14620]) .leaf) 194723 194723 (0, [24724]) (.node .leaf 194724 194724 (0, [141012]) .leaf))) 194725 194725 (0, [24775]) (.node (.node (.node (.node .leaf 194726 194726 (0, [24904]) .leaf) 194727 194727 (0, [24908]) .leaf) 194728 194728 (0, [24910]) (.node (.node .leaf 194729 194729 (0, [24908]) .leaf) 194730 194730 (0, [24954]) .leaf)) 194731 194731 (0, [24974]) (.node (.node (.node .leaf 194732 194732 (0, [25010]) .leaf) 194733 194733 (0, [24996]) .leaf) 194734 194734 (0, [25007]) (.node .leaf 194735 194735 (0, [25054]) .leaf))))))))

def unicodeData7 : RTree (Nat × List Nat) := (.node (.node (.node (.node (.node (.node (.node (.node (.node .leaf 194737 194737 (0, [25078]) .leaf) 194738 194738 (0, [25104]) .leaf) 194739 194739 (0, [25115]) (.node (.node .leaf 194740 194740 (0, [25181]) .leaf) 194741 194741 (0, [25265]) .leaf)) 194742 194742 (0, [25300]) (.node (.node (.node .leaf 194743 194743 (0, [25424]) .leaf) 194744 194744 (0, [142092]) .leaf) 194745 194745 (0, [25405]) (.node (.node .leaf 194746 194746 (0, [25340]) .leaf) 194747 194747 (0, [25448]) .leaf))) 194748 194748 (0, [25475]) (.node (.node (.node (.node .leaf 194749 194749 (0, [25572]) .leaf) 194750 194750 (0, [142321]) .leaf) 194751 194751 (0, [25634]) (.node (.node .leaf 194752 194752 (0, [25541]) .leaf) 194753 194753 (0, [25513]) .leaf)) 194754 194754 (0, [14894]) (.node (.node (.node .leaf 194755 194755 (0, [25705]) .leaf) 194756 194756 (0, [25726]) .leaf) 194757 194757 (0, [25757]) (.node .leaf 194758 194758 (0, [25719]) .leaf)))) 194759 194759 (0, [14956]) (.node (.node (.node (.node (.node .leaf 194760 194760 (0, [25935]) .leaf) 194761 194761 (0, [25964]) .leaf) 194762 194762 (0, [143370]) (.node (.node .leaf 194763 194763 (0, [26083]) .leaf) 194764 194764 (0, [26360]) .leaf)) 194765 194765 (0, [26185]) (.node (.node (.node .leaf 194766 194766 (0, [15129]) .leaf) 194767 194767 (0, [26257]) .leaf) 194768 194768 (0, [15112]) (.node (.node .leaf 194769 194769 (0, [15076]) .leaf) 194770 194770 (0, [20882]) .leaf))) 194771 194771 (0, [20885]) (.node (.node (.node (.node .leaf 194772 194772 (0, [26368]) .leaf) 194773 194773 (0, [26268]) .leaf) 194774 194774 (0, [32941]) (.node (.node .leaf 194775 194775 (0, [17369]) .leaf) 194776 194776 (0, [26391]) .leaf)) 194777 194777 (0, [26395]) (.node (.node (.node .leaf 194778 194778 (0, [26401]) .leaf) 194779 194779 (0, [26462]) .leaf) 194780 194780 (0, [26451]) (.node .leaf 194781 194781 (0, [144323]) .leaf))))) 194782 194782 (0, [15177]) (.node (.node (.node (.node (.node (.node .leaf 194783 194783 (0, [26618]) .leaf) 194784 194784 (0, [26501]) .leaf) 194785 194785 (0, [26706]) (.node (.node .leaf 194786 194786 (0, [26757]) .leaf) 194787 194787 (0, [144493]) .leaf)) 194788 194788 (0, [26766]) (.node (.node (.node .leaf 194789 194789 (0, [26655]) .leaf) 194790 194790 (0, [26900]) .leaf) 194791 194791 (0, [15261]) (.node (.node .leaf 194792 194792 (0, [26946]) .leaf) 194793 194793 (0, [27043]) .leaf))) 194794 194794 (0, [27114]) (.node (.node (.node (.node .leaf 194795 194795 (0, [27304]) .leaf) 194796 194796 (0, [145059]) .leaf) 194797 194797 (0, [27355]) (.node (.node .leaf 194798 194798 (0, [15384]) .leaf) 194799 194799 (0, [27425]) .leaf)) 194800 194800 (0, [145575]) (.node (.node (.node .leaf 194801 194801 (0, [27476]) .leaf) 194802 194802 (0, [15438]) .leaf) 194803 194803 (0, [27506]) (.node .leaf 194804 194804 (0, [27551]) .leaf)))) 194805 194805 (0, [27578]) (.node (.node (.node (.node (.node .leaf 194806 194806 (0, [27579]) .leaf) 194807 194807 (0, [146061]) .leaf) 194808 194808 (0, [138507]) (.node (.node .leaf 194809 194809 (0, [146170]) .leaf) 194810 194810 (0, [27726]) .leaf)) 194811 194811 (0, [146620]) (.node (.node (.node .leaf 194812 194812 (0, [27839]) .leaf) 194813 194813 (0, [27853]) .leaf) 194814 194814 (0, [27751]) (.node (.node .leaf 194815 194815 (0, [27926]) .leaf) 194816 194816 (0, [27966]) .leaf))) 194817 194817 (0, [28023]) (.node (.node (.node (.node .leaf 194818 194818 (0, [27969]) .leaf) 194819 194819 (0, [28009]) .leaf) 194820 194820 (0, [28024]) (.node (.node .leaf 194821 194821 (0, [28037]) .leaf) 194822 194822 (0, [146718]) .leaf)) 194823 194823 (0, [27956]) (.node (.node (.node .leaf 194824 194824 (0, [28207]) .leaf) 194825 194825 (0, [28270]) .leaf) 194826 194826 (0, [15667]) (.node .leaf 194827 194827 (0, [28363]) .leaf)))))) 194828 194828 (0, [28359]) (.node (.node (.node (.node (.node (.node (.node .leaf 194829 194829 (0, [147153]) .leaf) 194830 194830 (0, [28153]) .leaf) 194831 194831 (0, [28526]) (.node (.node .leaf 194832 194832 (0, [147294]) .leaf) 194833 194833 (0, [147342]) .leaf)) 194834 194834 (0, [28614]) (.node (.node (.node .leaf 194835 194835 (0, [28729]) .leaf) 194836 194836 (0, [28702]) .leaf) 194837 194837 (0, [28699]) (.node (.node .leaf 194838 194838 (0, [15766]) .leaf) 194839 194839 (0, [28746]) .leaf))) 194840 194840 (0, [28797]) (.node (.node (.node (.node .leaf 194841 194841 (0, [28791]) .leaf) 194842 194842 (0, [28845]) .leaf) 194843 194843 (0, [132389]) (.node (.node .leaf 194844 194844 (0, [28997]) .leaf) 194845 194845 (0, [148067]) .leaf)) 194846 194846 (0, [29084]) (.node (.node (.node .leaf 194847 194847 (0, [148395]) .leaf) 194848 194848 (0, [29224]) .leaf) 194849 194849 (0, [29237]) (.node .leaf 194850 194850 (0, [29264]) .leaf)))) 194851 194851 (0, [149000]) (.node (.node (.node (.node (.node .leaf 194852 194852 (0, [29312]) .leaf) 194853 194853 (0, [29333]) .leaf) 194854 194854 (0, [149301]) (.node (.node .leaf 194855 194855 (0, [149524]) .leaf) 194856 194856 (0, [29562]) .leaf)) 194857 194857 (0, [29579]) (.node (.node (.node .leaf 194858 194858 (0, [16044]) .leaf) 194859 194859 (0, [29605]) .leaf) 194860 194860 (0, [16056]) (.node (.node .leaf 194861 194861 (0, [16056]) .leaf) 194862 194862 (0, [29767]) .leaf))) 194863 194863 (0, [29788]) (.node (.node (.node (.node .leaf 194864 194864 (0, [29809]) .leaf) 194865 194865 (0, [29829]) .leaf) 194866 194866 (0, [29898]) (.node (.node .leaf 194867 194867 (0, [16155]) .leaf) 194868 194868 (0, [29988]) .leaf)) 194869 194869 (0, [150582]) (.node (.node (.node .leaf 194870 194870 (0, [30014]) .leaf) 194871 194871 (0, [150674]) .leaf) 194872 194872 (0, [30064]) (.node .leaf 194873 194873 (0, [139679]) .leaf))))) 194874 194874 (0, [30224]) (.node (.node (.node (.node (.node (.node .leaf 194875 194875 (0, [151457]) .leaf) 194876 194876 (0, [151480]) .leaf) 194877 194877 (0, [151620]) (.node (.node .leaf 194878 194878 (0, [16380]) .leaf) 194879 194879 (0, [16392]) .leaf)) 194880 194880 (0, [30452]) (.node (.node (.node .leaf 194881 194881 (0, [151795]) .leaf) 194882 194882 (0, [151794]) .leaf) 194883 194883 (0, [151833]) (.node (.node .leaf 194884 194884 (0, [151859]) .leaf) 194885 194885 (0, [30494]) .leaf))) 194886 194886 (0, [30495]) (.node (.node (.node (.node .leaf 194887 194887 (0, [30495]) .leaf) 194888 194888 (0, [30538]) .leaf) 194889 194889 (0, [16441]) (.node (.node .leaf 194890 194890 (0, [30603]) .leaf) 194891 194891 (0, [16454]) .leaf)) 194892 194892 (0, [16534]) (.node (.node (.node .leaf 194893 194893 (0, [152605]) .leaf) 194894 194894 (0, [30798]) .leaf) 194895 194895 (0, [30860]) (.node .leaf 194896 194896 (0, [30924]) .leaf)))) 194897 194897 (0, [16611]) (.node (.node (.node (.node (.node .leaf 194898 194898 (0, [153126]) .leaf) 194899 194899 (0, [31062]) .leaf) 194900 194900 (0, [153242]) (.node (.node .leaf 194901 194901 (0, [153285]) .leaf) 194902 194902 (0, [31119]) .leaf)) 194903 194903 (0, [31211]) (.node (.node (.node .leaf 194904 194904 (0, [16687]) .leaf) 194905 194905 (0, [31296]) .leaf) 194906 194906 (0, [31306]) (.node .leaf 194907 194907 (0, [31311]) .leaf))) 194908 194908 (0, [153980]) (.node (.node (.node (.node .leaf 194909 194909 (0, [154279]) .leaf) 194910 194910 (0, [154279]) .leaf) 194911 194911 (0, [31470]) (.node (.node .leaf 194912 194912 (0, [16898]) .leaf) 194913 194913 (0, [154539]) .leaf)) 194914 194914 (0, [31686]) (.node (.node (.node .leaf 194915 194915 (0, [31689]) .leaf) 194916 194916 (0, [16935]) .leaf) 194917 194917 (0, [154752]) (.node .leaf 194918 194918 (0, [31954]) .leaf))))))) 194919 194919 (0, [17056]) (.node (.node (.node (.node (.node (.node (.node (.node .leaf 194920 194920 (0, [31976]) .leaf) 194921 194921 (0, [31971]) .leaf) 194922 194922 (0, [32000]) (.node (.node .leaf 194923 194923 (0, [155526]) .leaf) 194924 194924 (0, [32099]) .leaf)) 194925 194925 (0, [17153]) (.node (.node (.node .leaf 194926 194926 (0, [32199]) .leaf) 194927 194927 (0, [32258]) .leaf) 194928 194928 (0, [32325]) (.node (.node .leaf 194929 194929 (0, [17204]) .leaf) 194930 194930 (0, [156200]) .leaf))) 194931 194931 (0, [156231]) (.node (.node (.node (.node .leaf 194932 194932 (0, [17241]) .leaf) 194933 194933 (0, [156377]) .leaf) 194934 194934 (0, [32634]) (.node (.node .leaf 194935 194935 (0, [156478]) .leaf) 194936 194936 (0, [32661]) .leaf)) 194937 194937 (0, [32762]) (.node (.node (.node .leaf 194938 194938 (0, [32773]) .leaf) 194939 194939 (0, [156890]) .leaf) 194940 194940 (0, [156963]) (.node .leaf 194941 194941 (0, [32864]) .leaf)))) 194942 194942 (0, [157096]) (.node (.node (.node (.node (.node .leaf 194943 194943 (0, [32880]) .leaf) 194944 194944 (0, [144223]) .leaf) 194945 194945 (0, [17365]) (.node (.node .leaf 194946 194946 (0, [32946]) .leaf) 194947 194947 (0, [33027]) .leaf)) 194948 194948 (0, [17419]) (.node (.node (.node .leaf 194949 194949 (0, [33086]) .leaf) 194950 194950 (0, [23221]) .leaf) 194951 194951 (0, [157607]) (.node (.node .leaf 194952 194952 (0, [157621]) .leaf) 194953 194953 (0, [144275]) .leaf))) 194954 194954 (0, [144284]) (.node (.node (.node (.node .leaf 194955 194955 (0, [33281]) .leaf) 194956 194956 (0, [33284]) .leaf) 194957 194957 (0, [36766]) (.node (.node .leaf 194958 194958 (0, [17515]) .leaf) 194959 194959 (0, [33425]) .leaf)) 194960 194960 (0, [33419]) (.node (.node (.node .leaf 194961 194961 (0, [33437]) .leaf) 194962 194962 (0, [21171]) .leaf) 194963 194963 (0, [33457]) (.node .leaf 194964 194964 (0, [33459]) .leaf))))) 194965 194965 (0, [33469]) (.node (.node (.node (.node (.node (.node .leaf 194966 194966 (0, [33510]) .leaf) 194967 194967 (0, [158524]) .leaf) 194968 194968 (0, [33509]) (.node (.node .leaf 194969 194969 (0, [33565]) .leaf) 194970 194970 (0, [33635]) .leaf)) 194971 194971 (0, [33709]) (.node (.node (.node .leaf 194972 194972 (0, [33571]) .leaf) 194973 194973 (0, [33725]) .leaf) 194974 194974 (0, [33767]) (.node (.node .leaf 194975 194975 (0, [33879]) .leaf) 194976 194976 (0, [33619]) .leaf))) 194977 194977 (0, [33738]) (.node (.node (.node (.node .leaf 194978 194978 (0, [33740]) .leaf) 194979 194979 (0, [33756]) .leaf) 194980 194980 (0, [158774]) (.node (.node .leaf 194981 194981 (0, [159083]) .leaf) 194982 194982 (0, [158933]) .leaf)) 194983 194983 (0, [17707]) (.node (.node (.node .leaf 194984 194984 (0, [34033]) .leaf) 194985 194985 (0, [34035]) .leaf) 194986 194986 (0, [34070]) (.node .leaf 194987 194987 (0, [160714]) .leaf)))) 194988 194988 (0, [34148]) (.node (.node (.node (.node (.node .leaf 194989 194989 (0, [159532]) .leaf) 194990 194990 (0, [17757]) .leaf) 194991 194991 (0, [17761]) (.node (.node .leaf 194992 194992 (0, [159665]) .leaf) 194993 194993 (0, [159954]) .leaf)) 194994 194994 (0, [17771]) (.node (.node (.node .leaf 194995 194995 (0, [34384]) .leaf) 194996 194996 (0, [34396]) .leaf) 194997 194997 (0, [34407]) (.node (.node .leaf 194998 194998 (0, [34409]) .leaf) 194999 194999 (0, [34473]) .leaf))) 195000 195000 (0, [34440]) (.node (.node (.node (.node .leaf 195001 195001 (0, [34574]) .leaf) 195002 195002 (0, [34530]) .leaf) 195003 195003 (0, [34681]) (.node (.node .leaf 195004 195004 (0, [34600]) .leaf) 195005 195005 (0, [34667]) .leaf)) 195006 195006 (0, [34694]) (.node (.node (.node .leaf 195007 195007 (0, [17879]) .leaf) 195008 195008 (0, [34785]) .leaf) 195009 195009 (0, [34817]) (.node .leaf 195010 195010 (0, [17913]) .leaf)))))) 195011 195011 (0, [34912]) (.node (.node (.node (.node (.node (.node (.node .leaf 195012 195012 (0, [34915]) .leaf) 195013 195013 (0, [161383]) .leaf) 195014 195014 (0, [35031]) (.node (.node .leaf 195015 195015 (0, [35038]) .leaf) 195016 195016 (0, [17973]) .leaf)) 195017 195017 (0, [35066]) (.node (.node (.node .leaf 195018 195018 (0, [13499]) .leaf) 195019 195019 (0, [161966]) .leaf) 195020 195020 (0, [162150]) (.node (.node .leaf 195021 195021 (0, [18110]) .leaf) 195022 195022 (0, [18119]) .leaf))) 195023 195023 (0, [35488]) (.node (.node (.node (.node .leaf 195024 195024 (0, [35565]) .leaf) 195025 195025 (0, [35722]) .leaf) 195026 195026 (0, [35925]) (.node (.node .leaf 195027 195027 (0, [162984]) .leaf) 195028 195028 (0, [36011]) .leaf)) 195029 195029 (0, [36033]) (.node (.node (.node .leaf 195030 195030 (0, [36123]) .leaf) 195031 195031 (0, [36215]) .leaf) 195032 195032 (0, [163631]) (.node .leaf 195033 195033 (0, [133124]) .leaf)))) 195034 195034 (0, [36299]) (.node (.node (.node (.node (.node .leaf 195035 195035 (0, [36284]) .leaf) 195036 195036 (0, [36336]) .leaf) 195037 195037 (0, [133342]) (.node (.node .leaf 195038 195038 (0, [36564]) .leaf) 195039 195039 (0, [36664]) .leaf)) 195040 195040 (0, [165330]) (.node (.node (.node .leaf 195041 195041 (0, [165357]) .leaf) 195042 195042 (0, [37012]) .leaf) 195043 195043 (0, [37105]) (.node (.node .leaf 195044 195044 (0, [37137]) .leaf) 195045 195045 (0, [165678]) .leaf))) 195046 195046 (0, [37147]) (.node (.node (.node (.node .leaf 195047 195047 (0, [37432]) .leaf) 195048 195048 (0, [37591]) .leaf) 195049 195049 (0, [37592]) (.node (.node .leaf 195050 195050 (0, [37500]) .leaf) 195051 195051 (0, [37881]) .leaf)) 195052 195052 (0, [37909]) (.node (.node (.node .leaf 195053 195053 (0, [166906]) .leaf) 195054 195054 (0, [38283]) .leaf) 195055 195055 (0, [18837]) (.node .leaf 195056 195056 (0, [38327]) .leaf))))) 195057 195057 (0, [167287]) (.node (.node (.node (.node (.node (.node .leaf 195058 195058 (0, [18918]) .leaf) 195059 195059 (0, [38595]) .leaf) 195060 195060 (0, [23986]) (.node (.node .leaf 195061 195061 (0, [38691]) .leaf) 195062 195062 (0, [168261]) .leaf)) 195063 195063 (0, [168474]) (.node (.node (.node .leaf 195064 195064 (0, [19054]) .leaf) 195065 195065 (0, [19062]) .leaf) 195066 195066 (0, [38880]) (.node (.node .leaf 195067 195067 (0, [168970]) .leaf) 195068 195068 (0, [19122]) .leaf))) 195069 195069 (0, [169110]) (.node (.node (.node (.node .leaf 195070 195070 (0, [38923]) .leaf) 195071 195071 (0, [38923]) .leaf) 195072 195072 (0, [38953]) (.node (.node .leaf 195073 195073 (0, [169398]) .leaf) 195074 195074 (0, [39138]) .leaf)) 195075 195075 (0, [19251]) (.node (.node (.node .leaf 195076 195076 (0, [39209]) .leaf) 195077 195077 (0, [39335]) .leaf) 195078 195078 (0, [39362]) (.node .leaf 195079 195079 (0, [39422]) .leaf)))) 195080 195080 (0, [19406]) (.node (.node (.node (.node (.node .leaf 195081 195081 (0, [170800]) .leaf) 195082 195082 (0, [39698]) .leaf) 195083 195083 (0, [40000]) (.node (.node .leaf 195084 195084 (0, [40189]) .leaf) 195085 195085 (0, [19662]) .leaf)) 195086 195086 (0, [19693]) (.node (.node (.node .leaf 195087 195087 (0, [40295]) .leaf) 195088 195088 (0, [172238]) .leaf) 195089 195089 (0, [19704]) (.node .leaf 195090 195090 (0, [172293]) .leaf))) 195091 195091 (0, [172558]) (.node (.node (.node (.node .leaf 195092 195092 (0, [172689]) .leaf) 195093 195093 (0, [40635]) .leaf) 195094 195094 (0, [19798]) (.node (.node .leaf 195095 195095 (0, [40697]) .leaf) 195096 195096 (0, [40702]) .leaf)) 195097 195097 (0, [40709]) (.node (.node (.node .leaf 195098 195098 (0, [40719]) .leaf) 195099 195099 (0, [40726]) .leaf) 195100 195100 (0, [40763]) (.node .leaf 195101 195101 (0, [173568]) .leaf))))))))

/-- UnicodeData.txt: code point, canonical combining class and canonical decomposition of the lines that have one of these. -/
def unicodeData : RTree (Nat × List Nat) := (.node (.node (.node unicodeData0 902 902 (0, [913, 769]) unicodeData1) 3640 3640 (103, []) (.node unicodeData2 7835 7835 (0, [383, 775]) unicodeData3)) 8800 8800 (0, [61, 824]) (.node (.node unicodeData4 63924 63924 (0, [38936]) unicodeData5) 69788 69788 (0, [69787, 69818]) (.node unicodeData6 194736 194736 (0, [25074]) unicodeData7)))

def nfcQC0 : RTree QC := (.node (.node (.node (.node .leaf 768 772 .maybe .leaf) 774 780 .maybe (.node .leaf 783 783 .maybe .leaf)) 785 785 .maybe (.node (.node .leaf 787 788 .maybe .leaf) 795 795 .maybe (.node .leaf 803 808 .maybe .leaf))) 813 814 .maybe (.node (.node (.node .leaf 816 817 .maybe .leaf) 824 824 .maybe (.node .leaf 832 833 .no .leaf)) 834 834 .maybe (.node (.node .leaf 835 836 .no .leaf) 837 837 .maybe .leaf)))

def nfcQC1 : RTree QC := (.node (.node (.node (.node .leaf 894 894 .no .leaf) 903 903 .no (.node .leaf 1619 1621 .maybe .leaf)) 2364 2364 .maybe (.node (.node .leaf 2392 2399 .no .leaf) 2494 2494 .maybe (.node .leaf 2519 2519 .maybe .leaf))) 2524 2525 .no (.node (.node (.node .leaf 2527 2527 .no .leaf) 2611 2611 .no (.node .leaf 2614 2614 .no .leaf)) 2649 2651 .no (.node (.node .leaf 2654 2654 .no .leaf) 2878 2878 .maybe .leaf)))

def nfcQC2 : RTree QC := (.node (.node (.node (.node .leaf 2903 2903 .maybe .leaf) 2908 2909 .no (.node .leaf 3006 3006 .maybe .leaf)) 3031 3031 .maybe (.node (.node .leaf 3158 3158 .maybe .leaf) 3266 3266 .maybe (.node .leaf 3285 3286 .maybe .leaf))) 3390 3390 .maybe (.node (.node (.node .leaf 3415 3415 .maybe .leaf) 3530 3530 .maybe (.node .leaf 3535 3535 .maybe .leaf)) 3551 3551 .maybe (.node (.node .leaf 3907 3907 .no .leaf) 3917 3917 .no .leaf)))

def nfcQC3 : RTree QC := (.node (.node (.node (.node .leaf 3927 3927 .no .leaf) 3932 3932 .no (.node .leaf 3945 3945 .no .leaf)) 3955 3955 .no (.node (.node .leaf 3957 3958 .no .leaf) 3960 3960 .no .leaf)) 3969 3969 .no (.node (.node (.node .leaf 3987 3987 .no .leaf) 3997 3997 .no (.node .leaf 4002 4002 .no .leaf)) 4007 4007 .no (.node (.node .leaf 4012 4012 .no .leaf) 4025 4025 .no .leaf)))

def nfcQC4 : RTree QC := (.node (.node (.node (.node .leaf 4449 4469 .maybe .leaf) 4520 4546 .maybe (.node .leaf 6965 6965 .maybe .leaf)) 8049 8049 .no (.node (.node .leaf 8051 8051 .no .leaf) 8053 8053 .no (.node .leaf 8055 8055 .no .leaf))) 8057 8057 .no (.node (.node (.node .leaf 8059 8059 .no .leaf) 8061 8061 .no (.node .leaf 8123 8123 .no .leaf)) 8126 8126 .no (.node (.node .leaf 8137 8137 .no .leaf) 8139 8139 .no .leaf)))

def nfcQC5 : RTree QC := (.node (.node (.node (.node .leaf 8155 8155 .no .leaf) 8163 8163 .no (.node .leaf 8171 8171 .no .leaf)) 8174 8175 .no (.node (.node .leaf 8185 8185 .no .leaf) 8187 8187 .no (.node .leaf 8189 8189 .no .leaf))) 8192 8193 .no (.node (.node (.node .leaf 8486 8486 .no .leaf) 8490 8491 .no (.node .leaf 9001 9001 .no .leaf)) 9002 9002 .no (.node (.node .leaf 10972 10972 .no .leaf) 12441 12442 .maybe .leaf)))

def nfcQC6 : RTree QC := (.node (.node (.node (.node .leaf 64016 64016 .no .leaf) 64018 64018 .no (.node .leaf 64021 64030 .no .leaf)) 64032 64032 .no (.node (.node .leaf 64034 64034 .no .leaf) 64037 64038 .no (.node .leaf 64042 64109 .no .leaf))) 64112 64217 .no (.node (.node (.node .leaf 64285 64285 .no .leaf) 64287 64287 .no (.node .leaf 64298 64310 .no .leaf)) 64312 64316 .no (.node (.node .leaf 64318 64318 .no .leaf) 64320 64321 .no .leaf)))

def nfcQC7 : RTree QC := (.node (.node (.node (.node .leaf 64326 64334 .no .leaf) 69818 69818 .maybe (.node .leaf 69927 69927 .maybe .leaf)) 70462 70462 .maybe (.node (.node .leaf 70487 70487 .maybe .leaf) 70832 70832 .maybe .leaf)) 70842 70842 .maybe (.node (.node (.node .leaf 70845 70845 .maybe .leaf) 71087 71087 .maybe (.node .leaf 71984 71984 .maybe .leaf)) 119134 119140 .no (.node (.node .leaf 119227 119232 .no .leaf) 194560 195101 .no .leaf)))

/-- DerivedNormalizationProps.txt: the lines for NFC_QC. -/
def nfcQC : RTree QC := (.node (.node (.node nfcQC0 884 884 .no nfcQC1) 2902 2902 .maybe (.node nfcQC2 3922 3922 .no nfcQC3)) 4142 4142 .maybe (.node (.node nfcQC4 8147 8147 .no nfcQC5) 63744 64013 .no (.node nfcQC6 64323 64324 .no nfcQC7)))

def nfdQC0 : RTree QC := (.node (.node (.node (.node (.node .leaf 192 197 .no .leaf) 199 207 .no (.node .leaf 209 214 .no .leaf)) 217 221 .no (.node (.node .leaf 224 229 .no .leaf) 231 239 .no (.node .leaf 241 246 .no .leaf))) 249 253 .no (.node (.node (.node .leaf 255 271 .no .leaf) 274 293 .no (.node .leaf 296 304 .no .leaf)) 308 311 .no (.node (.node .leaf 313 318 .no .leaf) 323 328 .no (.node .leaf 332 337 .no .leaf)))) 340 357 .no (.node (.node (.node (.node .leaf 360 382 .no .leaf) 416 417 .no (.node .leaf 431 432 .no .leaf)) 461 476 .no (.node (.node .leaf 478 483 .no .leaf) 486 496 .no (.node .leaf 500 501 .no .leaf))) 504 539 .no (.node (.node (.node .leaf 542 543 .no .leaf) 550 563 .no (.node .leaf 832 833 .no .leaf)) 835 836 .no (.node (.node .leaf 884 884 .no .leaf) 894 894 .no .leaf))))

def nfdQC1 : RTree QC := (.node (.node (.node (.node (.node .leaf 902 902 .no .leaf) 903 903 .no (.node .leaf 904 906 .no .leaf)) 908 908 .no (.node (.node .leaf 910 912 .no .leaf) 938 944 .no (.node .leaf 970 974 .no .leaf))) 979 980 .no (.node (.node (.node .leaf 1024 1025 .no .leaf) 1027 1027 .no (.node .leaf 1031 1031 .no .leaf)) 1036 1038 .no (.node (.node .leaf 1049 1049 .no .leaf) 1081 1081 .no .leaf))) 1104 1105 .no (.node (.node (.node (.node .leaf 1107 1107 .no .leaf) 1111 1111 .no (.node .leaf 1116 1118 .no .leaf)) 1142 1143 .no (.node (.node .leaf 1217 1218 .no .leaf) 1232 1235 .no (.node .leaf 1238 1239 .no .leaf))) 1242 1247 .no (.node (.node (.node .leaf 1250 1255 .no .leaf) 1258 1269 .no (.node .leaf 1272 1273 .no .leaf)) 1570 1574 .no (.node (.node .leaf 1728 1728 .no .leaf) 1730 1730 .no .leaf))))

def nfdQC2 : RTree QC := (.node (.node (.node (.node (.node .leaf 2345 2345 .no .leaf) 2353 2353 .no (.node .leaf 2356 2356 .no .leaf)) 2392 2399 .no (.node (.node .leaf 2507 2508 .no .leaf) 2524 2525 .no (.node .leaf 2527 2527 .no .leaf))) 2611 2611 .no (.node (.node (.node .leaf 2614 2614 .no .leaf) 2649 2651 .no (.node .leaf 2654 2654 .no .leaf)) 2888 2888 .no (.node (.node .leaf 2891 2892 .no .leaf) 2908 2909 .no (.node .leaf 2964 2964 .no .leaf)))) 3018 3020 .no (.node (.node (.node (.node .leaf 3144 3144 .no .leaf) 3264 3264 .no (.node .leaf 3271 3272 .no .leaf)) 3274 3275 .no (.node (.node .leaf 3402 3404 .no .leaf) 3546 3546 .no (.node .leaf 3548 3550 .no .leaf))) 3907 3907 .no (.node (.node (.node .leaf 3917 3917 .no .leaf) 3922 3922 .no (.node .leaf 3927 3927 .no .leaf)) 3932 3932 .no (.node (.node .leaf 3945 3945 .no .leaf) 3955 3955 .no .leaf))))

def nfdQC3 : RTree QC := (.node (.node (.node (.node (.node .leaf 3960 3960 .no .leaf) 3969 3969 .no (.node .leaf 3987 3987 .no .leaf)) 3997 3997 .no (.node (.node .leaf 4002 4002 .no .leaf) 4007 4007 .no (.node .leaf 4012 4012 .no .leaf))) 4025 4025 .no (.node (.node (.node .leaf 4134 4134 .no .leaf) 6918 6918 .no (.node .leaf 6920 6920 .no .leaf)) 6922 6922 .no (.node (.node .leaf 6924 6924 .no .leaf) 6926 6926 .no .leaf))) 6930 6930 .no (.node (.node (.node (.node .leaf 6971 6971 .no .leaf) 6973 6973 .no (.node .leaf 6976 6977 .no .leaf)) 6979 6979 .no (.node (.node .leaf 7680 7833 .no .leaf) 7835 7835 .no (.node .leaf 7840 7929 .no .leaf))) 7936 7957 .no (.node (.node (.node .leaf 7960 7965 .no .leaf) 7968 8005 .no (.node .leaf 8008 8013 .no .leaf)) 8016 8023 .no (.node (.node .leaf 8025 8025 .no .leaf) 8027 8027 .no .leaf))))

def nfdQC4 : RTree QC := (.node (.node (.node (.node (.node .leaf 8031 8061 .no .leaf) 8064 8116 .no (.node .leaf 8118 8124 .no .leaf)) 8126 8126 .no (.node (.node .leaf 8129 8129 .no .leaf) 8130 8132 .no (.node .leaf 8134 8140 .no .leaf))) 8141 8143 .no (.node (.node (.node .leaf 8144 8147 .no .leaf) 8150 8155 .no (.node .leaf 8157 8159 .no .leaf)) 8160 8172 .no (.node (.node .leaf 8173 8175 .no .leaf) 8178 8180 .no (.node .leaf 8182 8188 .no .leaf)))) 8189 8189 .no (.node (.node (.node (.node .leaf 8192 8193 .no .leaf) 8486 8486 .no (.node .leaf 8490 8491 .no .leaf)) 8602 8603 .no (.node (.node .leaf 8622 8622 .no .leaf) 8653 8653 .no (.node .leaf 8654 8655 .no .leaf))) 8708 8708 .no (.node (.node (.node .leaf 8713 8713 .no .leaf) 8716 8716 .no (.node .leaf 8740 8740 .no .leaf)) 8742 8742 .no (.node (.node .leaf 8769 8769 .no .leaf) 8772 8772 .no .leaf))))

def nfdQC5 : RTree QC := (.node (.node (.node (.node (.node .leaf 8777 8777 .no .leaf) 8800 8800 .no (.node .leaf 8802 8802 .no .leaf)) 8813 8817 .no (.node (.node .leaf 8820 8821 .no .leaf) 8824 8825 .no (.node .leaf 8832 8833 .no .leaf))) 8836 8837 .no (.node (.node (.node .leaf 8840 8841 .no .leaf) 8876 8879 .no (.node .leaf 8928 8931 .no .leaf)) 8938 8941 .no (.node (.node .leaf 9001 9001 .no .leaf) 9002 9002 .no .leaf))) 10972 10972 .no (.node (.node (.node (.node .leaf 12364 12364 .no .leaf) 12366 12366 .no (.node .leaf 12368 12368 .no .leaf)) 12370 12370 .no (.node (.node .leaf 12372 12372 .no .leaf) 12374 12374 .no (.node .leaf 12376 12376 .no .leaf))) 12378 12378 .no (.node (.node (.node .leaf 12380 12380 .no .leaf) 12382 12382 .no (.node .leaf 12384 12384 .no .leaf)) 12386 12386 .no (.node (.node .leaf 12389 12389 .no .leaf) 12391 12391 .no .leaf))))

def nfdQC6 : RTree QC := (.node (.node (.node (.node (.node .leaf 12400 12401 .no .leaf) 12403 12404 .no (.node .leaf 12406 12407 .no .leaf)) 12409 12410 .no (.node (.node .leaf 12412 12413 .no .leaf) 12436 12436 .no (.node .leaf 12446 12446 .no .leaf))) 12460 12460 .no (.node (.node (.node .leaf 12462 12462 .no .leaf) 12464 12464 .no (.node .leaf 12466 12466 .no .leaf)) 12468 12468 .no (.node (.node .leaf 12470 12470 .no .leaf) 12472 12472 .no (.node .leaf 12474 12474 .no .leaf)))) 12476 12476 .no (.node (.node (.node (.node .leaf 12478 12478 .no .leaf) 12480 12480 .no (.node .leaf 12482 12482 .no .leaf)) 12485 12485 .no (.node (.node .leaf 12487 12487 .no .leaf) 12489 12489 .no (.node .leaf 12496 12497 .no .leaf))) 12499 12500 .no (.node (.node (.node .leaf 12502 12503 .no .leaf) 12505 12506 .no (.node .leaf 12508 12509 .no .leaf)) 12532 12532 .no (.node (.node .leaf 12535 12538 .no .leaf) 12542 12542 .no .leaf))))

def nfdQC7 : RTree QC := (.node (.node (.node (.node (.node .leaf 63744 64013 .no .leaf) 64016 64016 .no (.node .leaf 64018 64018 .no .leaf)) 64021 64030 .no (.node (.node .leaf 64032 64032 .no .leaf) 64034 64034 .no (.node .leaf 64037 64038 .no .leaf))) 64042 64109 .no (.node (.node (.node .leaf 64112 64217 .no .leaf) 64285 64285 .no (.node .leaf 64287 64287 .no .leaf)) 64298 64310 .no (.node (.node .leaf 64312 64316 .no .leaf) 64318 64318 .no .leaf))) 64320 64321 .no (.node (.node (.node (.node .leaf 64323 64324 .no .leaf) 64326 64334 .no (.node .leaf 69786 69786 .no .leaf)) 69788 69788 .no (.node (.node .leaf 69803 69803 .no .leaf) 69934 69935 .no (.node .leaf 70475 70476 .no .leaf))) 70843 70844 .no (.node (.node (.node .leaf 70846 70846 .no .leaf) 71098 71099 .no (.node .leaf 71992 71992 .no .leaf)) 119134 119140 .no (.node (.node .leaf 119227 119232 .no .leaf) 194560 195101 .no .leaf))))

/-- DerivedNormalizationProps.txt: the lines for NFD_QC. -/
def nfdQC : RTree QC := (.node (.node (.node nfdQC0 901 901 .no nfdQC1) 1747 1747 .no (.node nfdQC2 3957 3958 .no nfdQC3)) 8029 8029 .no (.node (.node nfdQC4 8775 8775 .no nfdQC5) 12393 12393 .no (.node nfdQC6 44032 55203 .no nfdQC7)))

def nfkcQC0 : RTree QC := (.node (.node (.node (.node (.node (.node .leaf 160 160 .no .leaf) 168 168 .no (.node .leaf 170 170 .no .leaf)) 175 175 .no (.node (.node .leaf 178 179 .no .leaf) 180 180 .no .leaf)) 181 181 .no (.node (.node (.node .leaf 184 184 .no .leaf) 185 185 .no (.node .leaf 186 186 .no .leaf)) 188 190 .no (.node (.node .leaf 306 307 .no .leaf) 319 320 .no .leaf))) 329 329 .no (.node (.node (.node (.node .leaf 383 383 .no .leaf) 452 460 .no (.node .leaf 497 499 .no .leaf)) 688 696 .no (.node (.node .leaf 728 733 .no .leaf) 736 740 .no .leaf)) 768 772 .maybe (.node (.node (.node .leaf 774 780 .maybe .leaf) 783 783 .maybe .leaf) 785 785 .maybe (.node (.node .leaf 787 788 .maybe .leaf) 795 795 .maybe .leaf)))) 803 808 .maybe (.node (.node (.node (.node (.node .leaf 813 814 .maybe .leaf) 816 817 .maybe (.node .leaf 824 824 .maybe .leaf)) 832 833 .no (.node (.node .leaf 834 834 .maybe .leaf) 835 836 .no .leaf)) 837 837 .maybe (.node (.node (.node .leaf 884 884 .no .leaf) 890 890 .no (.node .leaf 894 894 .no .leaf)) 900 901 .no (.node (.node .leaf 903 903 .no .leaf) 976 982 .no .leaf))) 1008 1010 .no (.node (.node (.node (.node .leaf 1012 1013 .no .leaf) 1017 1017 .no (.node .leaf 1415 1415 .no .leaf)) 1619 1621 .maybe (.node (.node .leaf 1653 1656 .no .leaf) 2364 2364 .maybe .leaf)) 2392 2399 .no (.node (.node (.node .leaf 2494 2494 .maybe .leaf) 2519 2519 .maybe .leaf) 2524 2525 .no (.node (.node .leaf 2527 2527 .no .leaf) 2611 2611 .no .leaf)))))

def nfkcQC1 : RTree QC := (.node (.node (.node (.node (.node (.node .leaf 2649 2651 .no .leaf) 2654 2654 .no (.node .leaf 2878 2878 .maybe .leaf)) 2902 2902 .maybe (.node (.node .leaf 2903 2903 .maybe .leaf) 2908 2909 .no .leaf)) 3006 3006 .maybe (.node (.node (.node .leaf 3031 3031 .maybe .leaf) 3158 3158 .maybe (.node .leaf 3266 3266 .maybe .leaf)) 3285 3286 .maybe (.node (.node .leaf 3390 3390 .maybe .leaf) 3415 3415 .maybe .leaf))) 3530 3530 .maybe (.node (.node (.node (.node .leaf 3535 3535 .maybe .leaf) 3551 3551 .maybe (.node .leaf 3635 3635 .no .leaf)) 3763 3763 .no (.node (.node .leaf 3804 3805 .no .leaf) 3852 3852 .no .leaf)) 3907 3907 .no (.node (.node (.node .leaf 3917 3917 .no .leaf) 3922 3922 .no .leaf) 3927 3927 .no (.node (.node .leaf 3932 3932 .no .leaf) 3945 3945 .no .leaf)))) 3955 3955 .no (.node (.node (.node (.node (.node .leaf 3957 3961 .no .leaf) 3969 3969 .no (.node .leaf 3987 3987 .no .leaf)) 3997 3997 .no (.node (.node .leaf 4002 4002 .no .leaf) 4007 4007 .no .leaf)) 4012 4012 .no (.node (.node (.node .leaf 4025 4025 .no .leaf) 4142 4142 .maybe (.node .leaf 4348 4348 .no .leaf)) 4449 4469 .maybe (.node (.node .leaf 4520 4546 .maybe .leaf) 6965 6965 .maybe .leaf))) 7468 7470 .no (.node (.node (.node (.node .leaf 7472 7482 .no .leaf) 7484 7501 .no (.node .leaf 7503 7530 .no .leaf)) 7544 7544 .no (.node (.node .leaf 7579 7615 .no .leaf) 7834 7835 .no .leaf)) 8049 8049 .no (.node (.node (.node .leaf 8051 8051 .no .leaf) 8053 8053 .no .leaf) 8055 8055 .no (.node (.node .leaf 8057 8057 .no .leaf) 8059 8059 .no .leaf)))))

def nfkcQC2 : RTree QC := (.node (.node (.node (.node (.node (.node .leaf 8123 8123 .no .leaf) 8125 8125 .no (.node .leaf 8126 8126 .no .leaf)) 8127 8129 .no (.node (.node .leaf 8137 8137 .no .leaf) 8139 8139 .no .leaf)) 8141 8143 .no (.node (.node (.node .leaf 8147 8147 .no .leaf) 8155 8155 .no (.node .leaf 8157 8159 .no .leaf)) 8163 8163 .no (.node (.node .leaf 8171 8171 .no .leaf) 8173 8175 .no .leaf))) 8185 8185 .no (.node (.node (.node (.node .leaf 8187 8187 .no .leaf) 8189 8190 .no (.node .leaf 8192 8202 .no .leaf)) 8209 8209 .no (.node (.node .leaf 8215 8215 .no .leaf) 8228 8230 .no .leaf)) 8239 8239 .no (.node (.node (.node .leaf 8243 8244 .no .leaf) 8246 8247 .no .leaf) 8252 8252 .no (.node (.node .leaf 8254 8254 .no .leaf) 8263 8265 .no .leaf)))) 8279 8279 .no (.node (.node (.node (.node (.node .leaf 8287 8287 .no .leaf) 8304 8304 .no (.node .leaf 8305 8305 .no .leaf)) 8308 8313 .no (.node (.node .leaf 8314 8316 .no .leaf) 8317 8317 .no .leaf)) 8318 8318 .no (.node (.node (.node .leaf 8319 8319 .no .leaf) 8320 8329 .no (.node .leaf 8330 8332 .no .leaf)) 8333 8333 .no (.node (.node .leaf 8334 8334 .no .leaf) 8336 8348 .no .leaf))) 8360 8360 .no (.node (.node (.node (.node .leaf 8448 8449 .no .leaf) 8450 8450 .no (.node .leaf 8451 8451 .no .leaf)) 8453 8454 .no (.node (.node .leaf 8455 8455 .no .leaf) 8457 8457 .no .leaf)) 8458 8467 .no (.node (.node (.node .leaf 8469 8469 .no .leaf) 8470 8470 .no .leaf) 8473 8477 .no (.node (.node .leaf 8480 8482 .no .leaf) 8484 8484 .no .leaf)))))

def nfkcQC3 : RTree QC := (.node (.node (.node (.node (.node (.node .leaf 8488 8488 .no .leaf) 8490 8493 .no (.node .leaf 8495 8497 .no .leaf)) 8499 8500 .no (.node (.node .leaf 8501 8504 .no .leaf) 8505 8505 .no .leaf)) 8507 8507 .no (.node (.node (.node .leaf 8508 8511 .no .leaf) 8512 8512 .no (.node .leaf 8517 8521 .no .leaf)) 8528 8543 .no (.node (.node .leaf 8544 8575 .no .leaf) 8585 8585 .no .leaf))) 8748 8749 .no (.node (.node (.node (.node .leaf 8751 8752 .no .leaf) 9001 9001 .no (.node .leaf 9002 9002 .no .leaf)) 9312 9371 .no (.node (.node .leaf 9372 9449 .no .leaf) 9450 9450 .no .leaf)) 10764 10764 .no (.node (.node (.node .leaf 10868 10870 .no .leaf) 10972 10972 .no .leaf) 11388 11389 .no (.node (.node .leaf 11631 11631 .no .leaf) 11935 11935 .no .leaf)))) 12019 12019 .no (.node (.node (.node (.node (.node .leaf 12032 12245 .no .leaf) 12288 12288 .no (.node .leaf 12342 12342 .no .leaf)) 12344 12346 .no (.node (.node .leaf 12441 12442 .maybe .leaf) 12443 12444 .no .leaf)) 12447 12447 .no (.node (.node (.node .leaf 12543 12543 .no .leaf) 12593 12686 .no (.node .leaf 12690 12693 .no .leaf)) 12694 12703 .no (.node (.node .leaf 12800 12830 .no .leaf) 12832 12841 .no .leaf))) 12842 12871 .no (.node (.node (.node (.node .leaf 12880 12880 .no .leaf) 12881 12895 .no (.node .leaf 12896 12926 .no .leaf)) 12928 12937 .no (.node (.node .leaf 12938 12976 .no .leaf) 12977 12991 .no .leaf)) 12992 13311 .no (.node (.node (.node .leaf 42652 42653 .no .leaf) 42864 42864 .no .leaf) 43000 43001 .no (.node (.node .leaf 43868 43871 .no .leaf) 43881 43881 .no .leaf)))))

def nfkcQC4 : RTree QC := (.node (.node (.node (.node (.node (.node .leaf 64016 64016 .no .leaf) 64018 64018 .no (.node .leaf 64021 64030 .no .leaf)) 64032 64032 .no (.node (.node .leaf 64034 64034 .no .leaf) 64037 64038 .no .leaf)) 64042 64109 .no (.node (.node (.node .leaf 64112 64217 .no .leaf) 64256 64262 .no (.node .leaf 64275 64279 .no .leaf)) 64285 64285 .no (.node (.node .leaf 64287 64296 .no .leaf) 64297 64297 .no .leaf))) 64298 64310 .no (.node (.node (.node (.node .leaf 64312 64316 .no .leaf) 64318 64318 .no (.node .leaf 64320 64321 .no .leaf)) 64323 64324 .no (.node (.node .leaf 64326 64433 .no .leaf) 64467 64829 .no .leaf)) 64848 64911 .no (.node (.node (.node .leaf 64914 64967 .no .leaf) 65008 65019 .no .leaf) 65020 65020 .no (.node (.node .leaf 65040 65046 .no .leaf) 65047 65047 .no .leaf)))) 65048 65048 .no (.node (.node (.node (.node (.node .leaf 65049 65049 .no .leaf) 65072 65072 .no (.node .leaf 65073 65074 .no .leaf)) 65075 65076 .no (.node (.node .leaf 65077 65077 .no .leaf) 65078 65078 .no .leaf)) 65079 65079 .no (.node (.node (.node .leaf 65080 65080 .no .leaf) 65081 65081 .no (.node .leaf 65082 65082 .no .leaf)) 65083 65083 .no (.node (.node .leaf 65084 65084 .no .leaf) 65085 65085 .no .leaf))) 65086 65086 .no (.node (.node (.node (.node .leaf 65087 65087 .no .leaf) 65088 65088 .no (.node .leaf 65089 65089 .no .leaf)) 65090 65090 .no (.node (.node .leaf 65091 65091 .no .leaf) 65092 65092 .no .leaf)) 65095 65095 .no (.node (.node (.node .leaf 65096 65096 .no .leaf) 65097 65100 .no .leaf) 65101 65103 .no (.node (.node .leaf 65104 65106 .no .leaf) 65108 65111 .no .leaf)))))

def nfkcQC5 : RTree QC := (.node (.node (.node (.node (.node (.node .leaf 65113 65113 .no .leaf) 65114 65114 .no (.node .leaf 65115 65115 .no .leaf)) 65116 65116 .no (.node (.node .leaf 65117 65117 .no .leaf) 65118 65118 .no .leaf)) 65119 65121 .no (.node (.node (.node .leaf 65122 65122 .no .leaf) 65123 65123 .no (.node .leaf 65124 65126 .no .leaf)) 65128 65128 .no (.node (.node .leaf 65129 65129 .no .leaf) 65130 65131 .no .leaf))) 65136 65138 .no (.node (.node (.node (.node .leaf 65140 65140 .no .leaf) 65142 65276 .no (.node .leaf 65281 65283 .no .leaf)) 65284 65284 .no (.node (.node .leaf 65285 65287 .no .leaf) 65288 65288 .no .leaf)) 65289 65289 .no (.node (.node (.node .leaf 65290 65290 .no .leaf) 65291 65291 .no .leaf) 65292 65292 .no (.node (.node .leaf 65293 65293 .no .leaf) 65294 65295 .no .leaf)))) 65296 65305 .no (.node (.node (.node (.node (.node .leaf 65306 65307 .no .leaf) 65308 65310 .no (.node .leaf 65311 65312 .no .leaf)) 65313 65338 .no (.node (.node .leaf 65339 65339 .no .leaf) 65340 65340 .no .leaf)) 65341 65341 .no (.node (.node (.node .leaf 65342 65342 .no .leaf) 65343 65343 .no (.node .leaf 65344 65344 .no .leaf)) 65345 65370 .no (.node (.node .leaf 65371 65371 .no .leaf) 65372 65372 .no .leaf))) 65373 65373 .no (.node (.node (.node (.node .leaf 65374 65374 .no .leaf) 65375 65375 .no (.node .leaf 65376 65376 .no .leaf)) 65377 65377 .no (.node (.node .leaf 65378 65378 .no .leaf) 65379 65379 .no .leaf)) 65380 65381 .no (.node (.node (.node .leaf 65382 65391 .no .leaf) 65392 65392 .no .leaf) 65393 65437 .no (.node (.node .leaf 65438 65439 .no .leaf) 65440 65470 .no .leaf)))))

def nfkcQC6 : RTree QC := (.node (.node (.node (.node (.node (.node .leaf 65482 65487 .no .leaf) 65490 65495 .no (.node .leaf 65498 65500 .no .leaf)) 65504 65505 .no (.node (.node .leaf 65506 65506 .no .leaf) 65507 65507 .no .leaf)) 65508 65508 .no (.node (.node (.node .leaf 65509 65510 .no .leaf) 65512 65512 .no (.node .leaf 65513 65516 .no .leaf)) 65517 65518 .no (.node (.node .leaf 69818 69818 .maybe .leaf) 69927 69927 .maybe .leaf))) 70462 70462 .maybe (.node (.node (.node (.node .leaf 70487 70487 .maybe .leaf) 70832 70832 .maybe (.node .leaf 70842 70842 .maybe .leaf)) 70845 70845 .maybe (.node (.node .leaf 71087 71087 .maybe .leaf) 71984 71984 .maybe .leaf)) 119134 119140 .no (.node (.node (.node .leaf 119227 119232 .no .leaf) 119808 119892 .no .leaf) 119894 119964 .no (.node (.node .leaf 119966 119967 .no .leaf) 119970 119970 .no .leaf)))) 119973 119974 .no (.node (.node (.node (.node (.node .leaf 119977 119980 .no .leaf) 119982 119993 .no (.node .leaf 119995 119995 .no .leaf)) 119997 120003 .no (.node (.node .leaf 120005 120069 .no .leaf) 120071 120074 .no .leaf)) 120077 120084 .no (.node (.node (.node .leaf 120086 120092 .no .leaf) 120094 120121 .no (.node .leaf 120123 120126 .no .leaf)) 120128 120132 .no (.node (.node .leaf 120134 120134 .no .leaf) 120138 120144 .no .leaf))) 120146 120485 .no (.node (.node (.node (.node .leaf 120488 120512 .no .leaf) 120513 120513 .no (.node .leaf 120514 120538 .no .leaf)) 120539 120539 .no (.node (.node .leaf 120540 120570 .no .leaf) 120571 120571 .no .leaf)) 120572 120596 .no (.node (.node (.node .leaf 120597 120597 .no .leaf) 120598 120628 .no .leaf) 120629 120629 .no (.node (.node .leaf 120630 120654 .no .leaf) 120655 120655 .no .leaf)))))

def nfkcQC7 : RTree QC := (.node (.node (.node (.node (.node (.node .leaf 120687 120687 .no .leaf) 120688 120712 .no (.node .leaf 120713 120713 .no .leaf)) 120714 120744 .no (.node (.node .leaf 120745 120745 .no .leaf) 120746 120770 .no .leaf)) 120771 120771 .no (.node (.node (.node .leaf 120772 120779 .no .leaf) 120782 120831 .no (.node .leaf 126464 126467 .no .leaf)) 126469 126495 .no (.node (.node .leaf 126497 126498 .no .leaf) 126500 126500 .no .leaf))) 126503 126503 .no (.node (.node (.node (.node .leaf 126505 126514 .no .leaf) 126516 126519 .no (.node .leaf 126521 126521 .no .leaf)) 126523 126523 .no (.node (.node .leaf 126530 126530 .no .leaf) 126535 126535 .no .leaf)) 126537 126537 .no (.node (.node (.node .leaf 126539 126539 .no .leaf) 126541 126543 .no .leaf) 126545 126546 .no (.node (.node .leaf 126548 126548 .no .leaf) 126551 126551 .no .leaf)))) 126553 126553 .no (.node (.node (.node (.node (.node .leaf 126555 126555 .no .leaf) 126557 126557 .no (.node .leaf 126559 126559 .no .leaf)) 126561 126562 .no (.node (.node .leaf 126564 126564 .no .leaf) 126567 126570 .no .leaf)) 126572 126578 .no (.node (.node (.node .leaf 126580 126583 .no .leaf) 126585 126588 .no (.node .leaf 126590 126590 .no .leaf)) 126592 126601 .no (.node (.node .leaf 126603 126619 .no .leaf) 126625 126627 .no .leaf))) 126629 126633 .no (.node (.node (.node (.node .leaf 126635 126651 .no .leaf) 127232 127242 .no (.node .leaf 127248 127278 .no .leaf)) 127280 127311 .no (.node (.node .leaf 127338 127340 .no .leaf) 127376 127376 .no .leaf)) 127488 127490 .no (.node (.node (.node .leaf 127504 127547 .no .leaf) 127552 127560 .no .leaf) 127568 127569 .no (.node (.node .leaf 130032 130041 .no .leaf) 194560 195101 .no .leaf)))))

/-- DerivedNormalizationProps.txt: the lines for NFKC_QC. -/
def nfkcQC : RTree QC := (.node (.node (.node nfkcQC0 2614 2614 .no nfkcQC1) 8061 8061 .no (.node nfkcQC2 8486 8486 .no nfkcQC3)) 63744 64013 .no (.node (.node nfkcQC4 65112 65112 .no nfkcQC5) 65474 65479 .no (.node nfkcQC6 120656 120686 .no nfkcQC7)))

def nfkdQC0 : RTree QC := (.node (.node (.node (.node (.node (.node (.node .leaf 160 160 .no .leaf) 168 168 .no .leaf) 170 170 .no (.node .leaf 175 175 .no .leaf)) 178 179 .no (.node (.node .leaf 180 180 .no .leaf) 181 181 .no (.node .leaf 184 184 .no .leaf))) 185 185 .no (.node (.node (.node .leaf 186 186 .no .leaf) 188 190 .no (.node .leaf 192 197 .no .leaf)) 199 207 .no (.node (.node .leaf 209 214 .no .leaf) 217 221 .no (.node .leaf 224 229 .no .leaf)))) 231 239 .no (.node (.node (.node (.node (.node .leaf 241 246 .no .leaf) 249 253 .no .leaf) 255 271 .no (.node .leaf 274 293 .no .leaf)) 296 304 .no (.node (.node .leaf 306 311 .no .leaf) 313 320 .no (.node .leaf 323 329 .no .leaf))) 332 337 .no (.node (.node (.node .leaf 340 357 .no .leaf) 360 383 .no (.node .leaf 416 417 .no .leaf)) 431 432 .no (.node (.node .leaf 452 476 .no .leaf) 478 483 .no (.node .leaf 486 501 .no .leaf))))) 504 539 .no (.node (.node (.node (.node (.node (.node .leaf 542 543 .no .leaf) 550 563 .no .leaf) 688 696 .no (.node .leaf 728 733 .no .leaf)) 736 740 .no (.node (.node .leaf 832 833 .no .leaf) 835 836 .no (.node .leaf 884 884 .no .leaf))) 890 890 .no (.node (.node (.node .leaf 894 894 .no .leaf) 900 901 .no (.node .leaf 902 902 .no .leaf)) 903 903 .no (.node (.node .leaf 904 906 .no .leaf) 908 908 .no (.node .leaf 910 912 .no .leaf)))) 938 944 .no (.node (.node (.node (.node (.node .leaf 970 974 .no .leaf) 976 982 .no .leaf) 1008 1010 .no (.node .leaf 1012 1013 .no .leaf)) 1017 1017 .no (.node (.node .leaf 1024 1025 .no .leaf) 1027 1027 .no (.node .leaf 1031 1031 .no .leaf))) 1036 1038 .no (.node (.node (.node .leaf 1049 1049 .no .leaf) 1081 1081 .no (.node .leaf 1104 1105 .no .leaf)) 1107 1107 .no (.node (.node .leaf 1111 1111 .no .leaf) 1116 1118 .no (.node .leaf 1142 1143 .no .leaf))))))

def nfkdQC1 : RTree QC := (.node (.node (.node (.node (.node (.node (.node .leaf 1232 1235 .no .leaf) 1238 1239 .no .leaf) 1242 1247 .no (.node .leaf 1250 1255 .no .leaf)) 1258 1269 .no (.node (.node .leaf 1272 1273 .no .leaf) 1415 1415 .no (.node .leaf 1570 1574 .no .leaf))) 1653 1656 .no (.node (.node (.node .leaf 1728 1728 .no .leaf) 1730 1730 .no (.node .leaf 1747 1747 .no .leaf)) 2345 2345 .no (.node (.node .leaf 2353 2353 .no .leaf) 2356 2356 .no (.node .leaf 2392 2399 .no .leaf)))) 2507 2508 .no (.node (.node (.node (.node (.node .leaf 2524 2525 .no .leaf) 2527 2527 .no .leaf) 2611 2611 .no (.node .leaf 2614 2614 .no .leaf)) 2649 2651 .no (.node (.node .leaf 2654 2654 .no .leaf) 2888 2888 .no (.node .leaf 2891 2892 .no .leaf))) 2908 2909 .no (.node (.node (.node .leaf 2964 2964 .no .leaf) 3018 3020 .no (.node .leaf 3144 3144 .no .leaf)) 3264 3264 .no (.node (.node .leaf 3271 3272 .no .leaf) 3274 3275 .no (.node .leaf 3402 3404 .no .leaf))))) 3546 3546 .no (.node (.node (.node (.node (.node (.node .leaf 3548 3550 .no .leaf) 3635 3635 .no .leaf) 3763 3763 .no (.node .leaf 3804 3805 .no .leaf)) 3852 3852 .no (.node (.node .leaf 3907 3907 .no .leaf) 3917 3917 .no (.node .leaf 3922 3922 .no .leaf))) 3927 3927 .no (.node (.node (.node .leaf 3932 3932 .no .leaf) 3945 3945 .no (.node .leaf 3955 3955 .no .leaf)) 3957 3961 .no (.node (.node .leaf 3969 3969 .no .leaf) 3987 3987 .no (.node .leaf 3997 3997 .no .leaf)))) 4002 4002 .no (.node (.node (.node (.node (.node .leaf 4007 4007 .no .leaf) 4012 4012 .no .leaf) 4025 4025 .no (.node .leaf 4134 4134 .no .leaf)) 4348 4348 .no (.node (.node .leaf 6918 6918 .no .leaf) 6920 6920 .no (.node .leaf 6922 6922 .no .leaf))) 6924 6924 .no (.node (.node (.node .leaf 6926 6926 .no .leaf) 6930 6930 .no (.node .leaf 6971 6971 .no .leaf)) 6973 6973 .no (.node (.node .leaf 6976 6977 .no .leaf) 6979 6979 .no (.node .leaf 7468 7470 .no .leaf))))))

def nfkdQC2 : RTree QC := (.node (.node (.node (.node (.node (.node (.node .leaf 7484 7501 .no .leaf) 7503 7530 .no .leaf) 7544 7544 .no (.node .leaf 7579 7615 .no .leaf)) 7680 7835 .no (.node (.node .leaf 7840 7929 .no .leaf) 7936 7957 .no (.node .leaf 7960 7965 .no .leaf))) 7968 8005 .no (.node (.node (.node .leaf 8008 8013 .no .leaf) 8016 8023 .no (.node .leaf 8025 8025 .no .leaf)) 8027 8027 .no (.node (.node .leaf 8029 8029 .no .leaf) 8031 8061 .no (.node .leaf 8064 8116 .no .leaf)))) 8118 8124 .no (.node (.node (.node (.node (.node .leaf 8125 8125 .no .leaf) 8126 8126 .no .leaf) 8127 8129 .no (.node .leaf 8130 8132 .no .leaf)) 8134 8140 .no (.node (.node .leaf 8141 8143 .no .leaf) 8144 8147 .no (.node .leaf 8150 8155 .no .leaf))) 8157 8159 .no (.node (.node (.node .leaf 8160 8172 .no .leaf) 8173 8175 .no (.node .leaf 8178 8180 .no .leaf)) 8182 8188 .no (.node (.node .leaf 8189 8190 .no .leaf) 8192 8202 .no (.node .leaf 8209 8209 .no .leaf))))) 8215 8215 .no (.node (.node (.node (.node (.node (.node .leaf 8228 8230 .no .leaf) 8239 8239 .no .leaf) 8243 8244 .no (.node .leaf 8246 8247 .no .leaf)) 8252 8252 .no (.node (.node .leaf 8254 8254 .no .leaf) 8263 8265 .no (.node .leaf 8279 8279 .no .leaf))) 8287 8287 .no (.node (.node (.node .leaf 8304 8304 .no .leaf) 8305 8305 .no (.node .leaf 8308 8313 .no .leaf)) 8314 8316 .no (.node (.node .leaf 8317 8317 .no .leaf) 8318 8318 .no (.node .leaf 8319 8319 .no .leaf)))) 8320 8329 .no (.node (.node (.node (.node (.node .leaf 8330 8332 .no .leaf) 8333 8333 .no .leaf) 8334 8334 .no (.node .leaf 8336 8348 .no .leaf)) 8360 8360 .no (.node (.node .leaf 8448 8449 .no .leaf) 8450 8450 .no (.node .leaf 8451 8451 .no .leaf))) 8453 8454 .no (.node (.node (.node .leaf 8455 8455 .no .leaf) 8457 8457 .no (.node .leaf 8458 8467 .no .leaf)) 8469 8469 .no (.node (.node .leaf 8470 8470 .no .leaf) 8473 8477 .no (.node .leaf 8480 8482 .no .leaf))))))

def nfkdQC3 : RTree QC := (.node (.node (.node (.node (.node (.node (.node .leaf 8486 8486 .no .leaf) 8488 8488 .no .leaf) 8490 8493 .no (.node .leaf 8495 8497 .no .leaf)) 8499 8500 .no (.node (.node .leaf 8501 8504 .no .leaf) 8505 8505 .no (.node .leaf 8507 8507 .no .leaf))) 8508 8511 .no (.node (.node (.node .leaf 8512 8512 .no .leaf) 8517 8521 .no (.node .leaf 8528 8543 .no .leaf)) 8544 8575 .no (.node (.node .leaf 8585 8585 .no .leaf) 8602 8603 .no (.node .leaf 8622 8622 .no .leaf)))) 8653 8653 .no (.node (.node (.node (.node (.node .leaf 8654 8655 .no .leaf) 8708 8708 .no .leaf) 8713 8713 .no (.node .leaf 8716 8716 .no .leaf)) 8740 8740 .no (.node (.node .leaf 8742 8742 .no .leaf) 8748 8749 .no (.node .leaf 8751 8752 .no .leaf))) 8769 8769 .no (.node (.node (.node .leaf 8772 8772 .no .leaf) 8775 8775 .no (.node .leaf 8777 8777 .no .leaf)) 8800 8800 .no (.node (.node .leaf 8802 8802 .no .leaf) 8813 8817 .no (.node .leaf 8820 8821 .no .leaf))))) 8824 8825 .no (.node (.node (.node (.node (.node (.node .leaf 8832 8833 .no .leaf) 8836 8837 .no .leaf) 8840 8841 .no (.node .leaf 8876 8879 .no .leaf)) 8928 8931 .no (.node (.node .leaf 8938 8941 .no .leaf) 9001 9001 .no (.node .leaf 9002 9002 .no .leaf))) 9312 9371 .no (.node (.node (.node .leaf 9372 9449 .no .leaf) 9450 9450 .no (.node .leaf 10764 10764 .no .leaf)) 10868 10870 .no (.node (.node .leaf 10972 10972 .no .leaf) 11388 11389 .no (.node .leaf 11631 11631 .no .leaf)))) 11935 11935 .no (.node (.node (.node (.node (.node .leaf 12019 12019 .no .leaf) 12032 12245 .no .leaf) 12288 12288 .no (.node .leaf 12342 12342 .no .leaf)) 12344 12346 .no (.node (.node .leaf 12364 12364 .no .leaf) 12366 12366 .no (.node .leaf 12368 12368 .no .leaf))) 12370 12370 .no (.node (.node (.node .leaf 12372 12372 .no .leaf) 12374 12374 .no (.node .leaf 12376 12376 .no .leaf)) 12378 12378 .no (.node (.node .leaf 12380 12380 .no .leaf) 12382 12382 .no (.node .leaf 12384 12384 .no .leaf))))))

def nfkdQC4 : RTree QC := (.node (.node (.node (.node (.node (.node (.node .leaf 12389 12389 .no .leaf) 12391 12391 .no .leaf) 12393 12393 .no (.node .leaf 12400 12401 .no .leaf)) 12403 12404 .no (.node (.node .leaf 12406 12407 .no .leaf) 12409 12410 .no (.node .leaf 12412 12413 .no .leaf))) 12436 12436 .no (.node (.node (.node .leaf 12443 12444 .no .leaf) 12446 12446 .no (.node .leaf 12447 12447 .no .leaf)) 12460 12460 .no (.node (.node .leaf 12462 12462 .no .leaf) 12464 12464 .no (.node .leaf 12466 12466 .no .leaf)))) 12468 12468 .no (.node (.node (.node (.node (.node .leaf 12470 12470 .no .leaf) 12472 12472 .no .leaf) 12474 12474 .no (.node .leaf 12476 12476 .no .leaf)) 12478 12478 .no (.node (.node .leaf 12480 12480 .no .leaf) 12482 12482 .no (.node .leaf 12485 12485 .no .leaf))) 12487 12487 .no (.node (.node (.node .leaf 12489 12489 .no .leaf) 12496 12497 .no (.node .leaf 12499 12500 .no .leaf)) 12502 12503 .no (.node (.node .leaf 12505 12506 .no .leaf) 12508 12509 .no (.node .leaf 12532 12532 .no .leaf))))) 12535 12538 .no (.node (.node (.node (.node (.node (.node .leaf 12542 12542 .no .leaf) 12543 12543 .no .leaf) 12593 12686 .no (.node .leaf 12690 12693 .no .leaf)) 12694 12703 .no (.node (.node .leaf 12800 12830 .no .leaf) 12832 12841 .no (.node .leaf 12842 12871 .no .leaf))) 12880 12880 .no (.node (.node (.node .leaf 12881 12895 .no .leaf) 12896 12926 .no (.node .leaf 12928 12937 .no .leaf)) 12938 12976 .no (.node (.node .leaf 12977 12991 .no .leaf) 12992 13311 .no (.node .leaf 42652 42653 .no .leaf)))) 42864 42864 .no (.node (.node (.node (.node (.node .leaf 43000 43001 .no .leaf) 43868 43871 .no .leaf) 43881 43881 .no (.node .leaf 44032 55203 .no .leaf)) 63744 64013 .no (.node (.node .leaf 64016 64016 .no .leaf) 64018 64018 .no (.node .leaf 64021 64030 .no .leaf))) 64032 64032 .no (.node (.node (.node .leaf 64034 64034 .no .leaf) 64037 64038 .no (.node .leaf 64042 64109 .no .leaf)) 64112 64217 .no (.node (.node .leaf 64256 64262 .no .leaf) 64275 64279 .no (.node .leaf 64285 64285 .no .leaf))))))

def nfkdQC5 : RTree QC := (.node (.node (.node (.node (.node (.node (.node .leaf 64297 64297 .no .leaf) 64298 64310 .no .leaf) 64312 64316 .no (.node .leaf 64318 64318 .no .leaf)) 64320 64321 .no (.node (.node .leaf 64323 64324 .no .leaf) 64326 64433 .no (.node .leaf 64467 64829 .no .leaf))) 64848 64911 .no (.node (.node (.node .leaf 64914 64967 .no .leaf) 65008 65019 .no (.node .leaf 65020 65020 .no .leaf)) 65040 65046 .no (.node (.node .leaf 65047 65047 .no .leaf) 65048 65048 .no (.node .leaf 65049 65049 .no .leaf)))) 65072 65072 .no (.node (.node (.node (.node (.node .leaf 65073 65074 .no .leaf) 65075 65076 .no .leaf) 65077 65077 .no (.node .leaf 65078 65078 .no .leaf)) 65079 65079 .no (.node (.node .leaf 65080 65080 .no .leaf) 65081 65081 .no (.node .leaf 65082 65082 .no .leaf))) 65083 65083 .no (.node (.node (.node .leaf 65084 65084 .no .leaf) 65085 65085 .no (.node .leaf 65086 65086 .no .leaf)) 65087 65087 .no (.node (.node .leaf 65088 65088 .no .leaf) 65089 65089 .no (.node .leaf 65090 65090 .no .leaf))))) 65091 65091 .no (.node (.node (.node (.node (.node (.node .leaf 65092 65092 .no .leaf) 65095 65095 .no .leaf) 65096 65096 .no (.node .leaf 65097 65100 .no .leaf)) 65101 65103 .no (.node (.node .leaf 65104 65106 .no .leaf) 65108 65111 .no (.node .leaf 65112 65112 .no .leaf))) 65113 65113 .no (.node (.node (.node .leaf 65114 65114 .no .leaf) 65115 65115 .no (.node .leaf 65116 65116 .no .leaf)) 65117 65117 .no (.node (.node .leaf 65118 65118 .no .leaf) 65119 65121 .no (.node .leaf 65122 65122 .no .leaf)))) 65123 65123 .no (.node (.node (.node (.node (.node .leaf 65124 65126 .no .leaf) 65128 65128 .no .leaf) 65129 65129 .no (.node .leaf 65130 65131 .no .leaf)) 65136 65138 .no (.node (.node .leaf 65140 65140 .no .leaf) 65142 65276 .no (.node .leaf 65281 65283 .no .leaf))) 65284 65284 .no (.node (.node (.node .leaf 65285 65287 .no .leaf) 65288 65288 .no (.node .leaf 65289 65289 .no .leaf)) 65290 65290 .no (.node (.node .leaf 65291 65291 .no .leaf) 65292 65292 .no (.node .leaf 65293 65293 .no .leaf))))))

def nfkdQC6 : RTree QC := (.node (.node (.node (.node (.node (.node (.node .leaf 65296 65305 .no .leaf) 65306 65307 .no .leaf) 65308 65310 .no (.node .leaf 65311 65312 .no .leaf)) 65313 65338 .no (.node (.node .leaf 65339 65339 .no .leaf) 65340 65340 .no (.node .leaf 65341 65341 .no .leaf))) 65342 65342 .no (.node (.node (.node .leaf 65343 65343 .no .leaf) 65344 65344 .no (.node .leaf 65345 65370 .no .leaf)) 65371 65371 .no (.node (.node .leaf 65372 65372 .no .leaf) 65373 65373 .no (.node .leaf 65374 65374 .no .leaf)))) 65375 65375 .no (.node (.node (.node (.node (.node .leaf 65376 65376 .no .leaf) 65377 65377 .no .leaf) 65378 65378 .no (.node .leaf 65379 65379 .no .leaf)) 65380 65381 .no (.node (.node .leaf 65382 65391 .no .leaf) 65392 65392 .no (.node .leaf 65393 65437 .no .leaf))) 65438 65439 .no (.node (.node (.node .leaf 65440 65470 .no .leaf) 65474 65479 .no (.node .leaf 65482 65487 .no .leaf)) 65490 65495 .no (.node (.node .leaf 65498 65500 .no .leaf) 65504 65505 .no (.node .leaf 65506 65506 .no .leaf))))) 65507 65507 .no (.node (.node (.node (.node (.node (.node .leaf 65508 65508 .no .leaf) 65509 65510 .no .leaf) 65512 65512 .no (.node .leaf 65513 65516 .no .leaf)) 65517 65518 .no (.node (.node .leaf 69786 69786 .no .leaf) 69788 69788 .no (.node .leaf 69803 69803 .no .leaf))) 69934 69935 .no (.node (.node (.node .leaf 70475 70476 .no .leaf) 70843 70844 .no (.node .leaf 70846 70846 .no .leaf)) 71098 71099 .no (.node (.node .leaf 71992 71992 .no .leaf) 119134 119140 .no (.node .leaf 119227 119232 .no .leaf)))) 119808 119892 .no (.node (.node (.node (.node (.node .leaf 119894 119964 .no .leaf) 119966 119967 .no .leaf) 119970 119970 .no (.node .leaf 119973 119974 .no .leaf)) 119977 119980 .no (.node (.node .leaf 119982 119993 .no .leaf) 119995 119995 .no (.node .leaf 119997 120003 .no .leaf))) 120005 120069 .no (.node (.node (.node .leaf 120071 120074 .no .leaf) 120077 120084 .no (.node .leaf 120086 120092 .no .leaf)) 120094 120121 .no (.node (.node .leaf 120123 120126 .no .leaf) 120128 120132 .no (.node .leaf 120134 120134 .no .leaf))))))

def nfkdQC7 : RTree QC := (.node (.node (.node (.node (.node (.node (.node .leaf 120146 120485 .no .leaf) 120488 120512 .no .leaf) 120513 120513 .no (.node .leaf 120514 120538 .no .leaf)) 120539 120539 .no (.node (.node .leaf 120540 120570 .no .leaf) 120571 120571 .no (.node .leaf 120572 120596 .no .leaf))) 120597 120597 .no (.node (.node (.node .leaf 120598 120628 .no .leaf) 120629 120629 .no (.node .leaf 120630 120654 .no .leaf)) 120655 120655 .no (.node (.node .leaf 120656 120686 .no .leaf) 120687 120687 .no (.node .leaf 120688 120712 .no .leaf)))) 120713 120713 .no (.node (.node (.node (.node (.node .leaf 120714 120744 .no .leaf) 120745 120745 .no .leaf) 120746 120770 .no (.node .leaf 120771 120771 .no .leaf)) 120772 120779 .no (.node (.node .leaf 120782 120831 .no .leaf) 126464 126467 .no (.node .leaf 126469 126495 .no .leaf))) 126497 126498 .no (.node (.node (.node .leaf 126500 126500 .no .leaf) 126503 126503 .no (.node .leaf 126505 126514 .no .leaf)) 126516 126519 .no (.node (.node .leaf 126521 126521 .no .leaf) 126523 126523 .no (.node .leaf 126530 126530 .no .leaf))))) 126535 126535 .no (.node (.node (.node (.node (.node (.node .leaf 126537 126537 .no .leaf) 126539 126539 .no .leaf) 126541 126543 .no (.node .leaf 126545 126546 .no .leaf)) 126548 126548 .no (.node (.node .leaf 126551 126551 .no .leaf) 126553 126553 .no (.node .leaf 126555 126555 .no .leaf))) 126557 126557 .no (.node (.node (.node .leaf 126559 126559 .no .leaf) 126561 126562 .no (.node .leaf 126564 126564 .no .leaf)) 126567 126570 .no (.node (.node .leaf 126572 126578 .no .leaf) 126580 126583 .no (.node .leaf 126585 126588 .no .leaf)))) 126590 126590 .no (.node (.node (.node (.node (.node .leaf 126592 126601 .no .leaf) 126603 126619 .no .leaf) 126625 126627 .no (.node .leaf 126629 126633 .no .leaf)) 126635 126651 .no (.node (.node .leaf 127232 127242 .no .leaf) 127248 127278 .no (.node .leaf 127280 127311 .no .leaf))) 127338 127340 .no (.node (.node (.node .leaf 127376 127376 .no .leaf) 127488 127490 .no (.node .leaf 127504 127547 .no .leaf)) 127552 127560 .no (.node (.node .leaf 127568 127569 .no .leaf) 130032 130041 .no (.node .leaf 194560 195101 .no .leaf))))))

/-- DerivedNormalizationProps.txt: the lines for NFKD_QC. -/
def nfkdQC : RTree QC := (.node (.node (.node nfkdQC0 1217 1218 .no nfkdQC1) 7472 7482 .no (.node nfkdQC2 8484 8484 .no nfkdQC3)) 12386 12386 .no (.node (.node nfkdQC4 64287 64296 .no nfkdQC5) 65294 65295 .no (.node nfkdQC6 120138 120144 .no nfkdQC7)))

/-- CompositionExclusions.txt -/
def exclusions : List Nat := [2392, 2393, 2394, 2395, 2396, 2397, 2398, 2399, 2524, 2525, 2527, 2611, 2614, 2649, 2650, 2651, 2654, 2908, 2909, 3907, 3917, 3922, 3927, 3932, 3945, 3958, 3960, 3987, 3997, 4002, 4007, 4012, 4025, 64285, 64287, 64298, 64299, 64300, 64301, 64302, 64303, 64304, 64305, 64306, 64307, 64308, 64309, 64310, 64312, 64313, 64314, 64315, 64316, 64318, 64320, 64321, 64323, 64324, 64326, 64327, 64328, 64329, 64330, 64331, 64332, 64333, 64334, 10972, 119134, 119135, 119136, 119137, 119138, 119139, 119140, 119227, 119228, 119229, 119230, 119231, 119232]

def pairTree0 : RTree Nat := (.node (.node (.node (.node (.node (.node (.node .leaf 125829944 125829944 8814 .leaf) 127927096 127927096 8800 (.node .leaf 130024248 130024248 8815 .leaf)) 136315648 136315648 192 (.node (.node .leaf 136315649 136315649 193 .leaf) 136315650 136315650 194 (.node .leaf 136315651 136315651 195 .leaf))) 136315652 136315652 256 (.node (.node (.node .leaf 136315654 136315654 258 .leaf) 136315655 136315655 550 (.node .leaf 136315656 136315656 196 .leaf)) 136315657 136315657 7842 (.node (.node .leaf 136315658 136315658 197 .leaf) 136315660 136315660 461 .leaf))) 136315663 136315663 512 (.node (.node (.node (.node .leaf 136315665 136315665 514 .leaf) 136315683 136315683 7840 (.node .leaf 136315685 136315685 7680 .leaf)) 136315688 136315688 260 (.node (.node .leaf 138412807 138412807 7682 .leaf) 138412835 138412835 7684 (.node .leaf 138412849 138412849 7686 .leaf))) 140509953 140509953 262 (.node (.node (.node .leaf 140509954 140509954 264 .leaf) 140509959 140509959 266 (.node .leaf 140509964 140509964 268 .leaf)) 140509991 140509991 199 (.node (.node .leaf 142607111 142607111 7690 .leaf) 142607116 142607116 270 .leaf)))) 142607139 142607139 7692 (.node (.node (.node (.node (.node .leaf 142607143 142607143 7696 .leaf) 142607149 142607149 7698 (.node .leaf 142607153 142607153 7694 .leaf)) 144704256 144704256 200 (.node (.node .leaf 144704257 144704257 201 .leaf) 144704258 144704258 202 (.node .leaf 144704259 144704259 7868 .leaf))) 144704260 144704260 274 (.node (.node (.node .leaf 144704262 144704262 276 .leaf) 144704263 144704263 278 (.node .leaf 144704264 144704264 203 .leaf)) 144704265 144704265 7866 (.node (.node .leaf 144704268 144704268 282 .leaf) 144704271 144704271 516 .leaf))) 144704273 144704273 518 (.node (.node (.node (.node .leaf 144704291 144704291 7864 .leaf) 144704295 144704295 552 (.node .leaf 144704296 144704296 280 .leaf)) 144704301 144704301 7704 (.node (.node .leaf 144704304 144704304 7706 .leaf) 146801415 146801415 7710 (.node .leaf 148898561 148898561 500 .leaf))) 148898562 148898562 284 (.node (.node (.node .leaf 148898564 148898564 7712 .leaf) 148898566 148898566 286 (.node .leaf 148898567 148898567 288 .leaf)) 148898572 148898572 486 (.node (.node .leaf 148898599 148898599 290 .leaf) 150995714 150995714 292 .leaf))))) 150995719 150995719 7714 (.node (.node (.node (.node (.node (.node .leaf 150995720 150995720 7718 .leaf) 150995724 150995724 542 (.node .leaf 150995747 150995747 7716 .leaf)) 150995751 150995751 7720 (.node (.node .leaf 150995758 150995758 7722 .leaf) 153092864 153092864 204 (.node .leaf 153092865 153092865 205 .leaf))) 153092866 153092866 206 (.node (.node (.node .leaf 153092867 153092867 296 .leaf) 153092868 153092868 298 (.node .leaf 153092870 153092870 300 .leaf)) 153092871 153092871 304 (.node (.node .leaf 153092872 153092872 207 .leaf) 153092873 153092873 7880 .leaf))) 153092876 153092876 463 (.node (.node (.node (.node .leaf 153092879 153092879 520 .leaf) 153092881 153092881 522 (.node .leaf 153092899 153092899 7882 .leaf)) 153092904 153092904 302 (.node (.node .leaf 153092912 153092912 7724 .leaf) 155190018 155190018 308 (.node .leaf 157287169 157287169 7728 .leaf))) 157287180 157287180 488 (.node (.node (.node .leaf 157287203 157287203 7730 .leaf) 157287207 157287207 310 (.node .leaf 157287217 157287217 7732 .leaf)) 159384321 159384321 313 (.node (.node .leaf 159384332 159384332 317 .leaf) 159384355 159384355 7734 .leaf)))) 159384359 159384359 315 (.node (.node (.node (.node (.node .leaf 159384365 159384365 7740 .leaf) 159384369 159384369 7738 (.node .leaf 161481473 161481473 7742 .leaf)) 161481479 161481479 7744 (.node (.node .leaf 161481507 161481507 7746 .leaf) 163578624 163578624 504 (.node .leaf 163578625 163578625 323 .leaf))) 163578627 163578627 209 (.node (.node (.node .leaf 163578631 163578631 7748 .leaf) 163578636 163578636 327 (.node .leaf 163578659 163578659 7750 .leaf)) 163578663 163578663 325 (.node (.node .leaf 163578669 163578669 7754 .leaf) 163578673 163578673 7752 .leaf))) 165675776 165675776 210 (.node (.node (.node (.node .leaf 165675777 165675777 211 .leaf) 165675778 165675778 212 (.node .leaf 165675779 165675779 213 .leaf)) 165675780 165675780 332 (.node (.node .leaf 165675782 165675782 334 .leaf) 165675783 165675783 558 .leaf)) 165675784 165675784 214 (.node (.node (.node .leaf 165675785 165675785 7886 .leaf) 165675787 165675787 336 (.node .leaf 165675788 165675788 465 .leaf)) 165675791 165675791 524 (.node (.node .leaf 165675793 165675793 526 .leaf) 165675803 165675803 416 .leaf))))))

def pairTree1 : RTree Nat := (.node (.node (.node (.node (.node (.node (.node .leaf 165675816 165675816 490 .leaf) 167772929 167772929 7764 (.node .leaf 167772935 167772935 7766 .leaf)) 171967233 171967233 340 (.node (.node .leaf 171967239 171967239 7768 .leaf) 171967244 171967244 344 (.node .leaf 171967247 171967247 528 .leaf))) 171967249 171967249 530 (.node (.node (.node .leaf 171967267 171967267 7770 .leaf) 171967271 171967271 342 (.node .leaf 171967281 171967281 7774 .leaf)) 174064385 174064385 346 (.node (.node .leaf 174064386 174064386 348 .leaf) 174064391 174064391 7776 .leaf))) 174064396 174064396 352 (.node (.node (.node (.node .leaf 174064419 174064419 7778 .leaf) 174064422 174064422 536 (.node .leaf 174064423 174064423 350 .leaf)) 176161543 176161543 7786 (.node (.node .leaf 176161548 176161548 356 .leaf) 176161571 176161571 7788 (.node .leaf 176161574 176161574 538 .leaf))) 176161575 176161575 354 (.node (.node (.node .leaf 176161581 176161581 7792 .leaf) 176161585 176161585 7790 (.node .leaf 178258688 178258688 217 .leaf)) 178258689 178258689 218 (.node (.node .leaf 178258690 178258690 219 .leaf) 178258691 178258691 360 .leaf)))) 178258692 178258692 362 (.node (.node (.node (.node (.node .leaf 178258694 178258694 364 .leaf) 178258696 178258696 220 (.node .leaf 178258697 178258697 7910 .leaf)) 178258698 178258698 366 (.node (.node .leaf 178258699 178258699 368 .leaf) 178258700 178258700 467 (.node .leaf 178258703 178258703 532 .leaf))) 178258705 178258705 534 (.node (.node (.node .leaf 178258715 178258715 431 .leaf) 178258723 178258723 7908 (.node .leaf 178258724 178258724 7794 .leaf)) 178258728 178258728 370 (.node (.node .leaf 178258733 178258733 7798 .leaf) 178258736 178258736 7796 .leaf))) 180355843 180355843 7804 (.node (.node (.node (.node .leaf 180355875 180355875 7806 .leaf) 182452992 182452992 7808 (.node .leaf 182452993 182452993 7810 .leaf)) 182452994 182452994 372 (.node (.node .leaf 182452999 182452999 7814 .leaf) 182453000 182453000 7812 .leaf)) 182453027 182453027 7816 (.node (.node (.node .leaf 184550151 184550151 7818 .leaf) 184550152 184550152 7820 (.node .leaf 186647296 186647296 7922 .leaf)) 186647297 186647297 221 (.node (.node .leaf 186647298 186647298 374 .leaf) 186647299 186647299 7928 .leaf))))) 186647300 186647300 562 (.node (.node (.node (.node (.node (.node .leaf 186647303 186647303 7822 .leaf) 186647304 186647304 376 (.node .leaf 186647305 186647305 7926 .leaf)) 186647331 186647331 7924 (.node (.node .leaf 188744449 188744449 377 .leaf) 188744450 188744450 7824 (.node .leaf 188744455 188744455 379 .leaf))) 188744460 188744460 381 (.node (.node (.node .leaf 188744483 188744483 7826 .leaf) 188744497 188744497 7828 (.node .leaf 203424512 203424512 224 .leaf)) 203424513 203424513 225 (.node (.node .leaf 203424514 203424514 226 .leaf) 203424515 203424515 227 .leaf))) 203424516 203424516 257 (.node (.node (.node (.node .leaf 203424518 203424518 259 .leaf) 203424519 203424519 551 (.node .leaf 203424520 203424520 228 .leaf)) 203424521 203424521 7843 (.node (.node .leaf 203424522 203424522 229 .leaf) 203424524 203424524 462 (.node .leaf 203424527 203424527 513 .leaf))) 203424529 203424529 515 (.node (.node (.node .leaf 203424547 203424547 7841 .leaf) 203424549 203424549 7681 (.node .leaf 203424552 203424552 261 .leaf)) 205521671 205521671 7683 (.node (.node .leaf 205521699 205521699 7685 .leaf) 205521713 205521713 7687 .leaf)))) 207618817 207618817 263 (.node (.node (.node (.node (.node .leaf 207618818 207618818 265 .leaf) 207618823 207618823 267 (.node .leaf 207618828 207618828 269 .leaf)) 207618855 207618855 231 (.node (.node .leaf 209715975 209715975 7691 .leaf) 209715980 209715980 271 (.node .leaf 209716003 209716003 7693 .leaf))) 209716007 209716007 7697 (.node (.node (.node .leaf 209716013 209716013 7699 .leaf) 209716017 209716017 7695 (.node .leaf 211813120 211813120 232 .leaf)) 211813121 211813121 233 (.node (.node .leaf 211813122 211813122 234 .leaf) 211813123 211813123 7869 .leaf))) 211813124 211813124 275 (.node (.node (.node (.node .leaf 211813126 211813126 277 .leaf) 211813127 211813127 279 (.node .leaf 211813128 211813128 235 .leaf)) 211813129 211813129 7867 (.node (.node .leaf 211813132 211813132 283 .leaf) 211813135 211813135 517 .leaf)) 211813137 211813137 519 (.node (.node (.node .leaf 211813155 211813155 7865 .leaf) 211813159 211813159 553 (.node .leaf 211813160 211813160 281 .leaf)) 211813165 211813165 7705 (.node (.node .leaf 211813168 211813168 7707 .leaf) 213910279 213910279 7711 .leaf))))))

def pairTree2 : RTree Nat := (.node (.node (.node (.node (.node (.node (.node .leaf 216007426 216007426 285 .leaf) 216007428 216007428 7713 (.node .leaf 216007430 216007430 287 .leaf)) 216007431 216007431 289 (.node (.node .leaf 216007436 216007436 487 .leaf) 216007463 216007463 291 (.node .leaf 218104578 218104578 293 .leaf))) 218104583 218104583 7715 (.node (.node (.node .leaf 218104584 218104584 7719 .leaf) 218104588 218104588 543 (.node .leaf 218104611 218104611 7717 .leaf)) 218104615 218104615 7721 (.node (.node .leaf 218104622 218104622 7723 .leaf) 218104625 218104625 7830 .leaf))) 220201728 220201728 236 (.node (.node (.node (.node .leaf 220201729 220201729 237 .leaf) 220201730 220201730 238 (.node .leaf 220201731 220201731 297 .leaf)) 220201732 220201732 299 (.node (.node .leaf 220201734 220201734 301 .leaf) 220201736 220201736 239 (.node .leaf 220201737 220201737 7881 .leaf))) 220201740 220201740 464 (.node (.node (.node .leaf 220201743 220201743 521 .leaf) 220201745 220201745 523 (.node .leaf 220201763 220201763 7883 .leaf)) 220201768 220201768 303 (.node (.node .leaf 220201776 220201776 7725 .leaf) 222298882 222298882 309 .leaf)))) 222298892 222298892 496 (.node (.node (.node (.node (.node .leaf 224396033 224396033 7729 .leaf) 224396044 224396044 489 (.node .leaf 224396067 224396067 7731 .leaf)) 224396071 224396071 311 (.node (.node .leaf 224396081 224396081 7733 .leaf) 226493185 226493185 314 (.node .leaf 226493196 226493196 318 .leaf))) 226493219 226493219 7735 (.node (.node (.node .leaf 226493223 226493223 316 .leaf) 226493229 226493229 7741 (.node .leaf 226493233 226493233 7739 .leaf)) 228590337 228590337 7743 (.node (.node .leaf 228590343 228590343 7745 .leaf) 228590371 228590371 7747 .leaf))) 230687488 230687488 505 (.node (.node (.node (.node .leaf 230687489 230687489 324 .leaf) 230687491 230687491 241 (.node .leaf 230687495 230687495 7749 .leaf)) 230687500 230687500 328 (.node (.node .leaf 230687523 230687523 7751 .leaf) 230687527 230687527 326 .leaf)) 230687533 230687533 7755 (.node (.node (.node .leaf 230687537 230687537 7753 .leaf) 232784640 232784640 242 (.node .leaf 232784641 232784641 243 .leaf)) 232784642 232784642 244 (.node (.node .leaf 232784643 232784643 245 .leaf) 232784644 232784644 333 .leaf))))) 232784646 232784646 335 (.node (.node (.node (.node (.node (.node .leaf 232784647 232784647 559 .leaf) 232784648 232784648 246 (.node .leaf 232784649 232784649 7887 .leaf)) 232784651 232784651 337 (.node (.node .leaf 232784652 232784652 466 .leaf) 232784655 232784655 525 (.node .leaf 232784657 232784657 527 .leaf))) 232784667 232784667 417 (.node (.node (.node .leaf 232784675 232784675 7885 .leaf) 232784680 232784680 491 (.node .leaf 234881793 234881793 7765 .leaf)) 234881799 234881799 7767 (.node (.node .leaf 239076097 239076097 341 .leaf) 239076103 239076103 7769 .leaf))) 239076108 239076108 345 (.node (.node (.node (.node .leaf 239076111 239076111 529 .leaf) 239076113 239076113 531 (.node .leaf 239076131 239076131 7771 .leaf)) 239076135 239076135 343 (.node (.node .leaf 239076145 239076145 7775 .leaf) 241173249 241173249 347 (.node .leaf 241173250 241173250 349 .leaf))) 241173255 241173255 7777 (.node (.node (.node .leaf 241173260 241173260 353 .leaf) 241173283 241173283 7779 (.node .leaf 241173286 241173286 537 .leaf)) 241173287 241173287 351 (.node (.node .leaf 243270407 243270407 7787 .leaf) 243270408 243270408 7831 .leaf)))) 243270412 243270412 357 (.node (.node (.node (.node (.node .leaf 243270435 243270435 7789 .leaf) 243270438 243270438 539 (.node .leaf 243270439 243270439 355 .leaf)) 243270445 243270445 7793 (.node (.node .leaf 243270449 243270449 7791 .leaf) 245367552 245367552 249 (.node .leaf 245367553 245367553 250 .leaf))) 245367554 245367554 251 (.node (.node (.node .leaf 245367555 245367555 361 .leaf) 245367556 245367556 363 (.node .leaf 245367558 245367558 365 .leaf)) 245367560 245367560 252 (.node (.node .leaf 245367561 245367561 7911 .leaf) 245367562 245367562 367 .leaf))) 245367563 245367563 369 (.node (.node (.node (.node .leaf 245367564 245367564 468 .leaf) 245367567 245367567 533 (.node .leaf 245367569 245367569 535 .leaf)) 245367579 245367579 432 (.node (.node .leaf 245367587 245367587 7909 .leaf) 245367588 245367588 7795 .leaf)) 245367592 245367592 371 (.node (.node (.node .leaf 245367597 245367597 7799 .leaf) 245367600 245367600 7797 (.node .leaf 247464707 247464707 7805 .leaf)) 247464739 247464739 7807 (.node (.node .leaf 249561856 249561856 7809 .leaf) 249561857 249561857 7811 .leaf))))))

def pairTree3 : RTree Nat := (.node (.node (.node (.node (.node (.node (.node .leaf 249561863 249561863 7815 .leaf) 249561864 249561864 7813 (.node .leaf 249561866 249561866 7832 .leaf)) 249561891 249561891 7817 (.node (.node .leaf 251659015 251659015 7819 .leaf) 251659016 251659016 7821 (.node .leaf 253756160 253756160 7923 .leaf))) 253756161 253756161 253 (.node (.node (.node .leaf 253756162 253756162 375 .leaf) 253756163 253756163 7929 (.node .leaf 253756164 253756164 563 .leaf)) 253756167 253756167 7823 (.node (.node .leaf 253756168 253756168 255 .leaf) 253756169 253756169 7927 .leaf))) 253756170 253756170 7833 (.node (.node (.node (.node .leaf 253756195 253756195 7925 .leaf) 255853313 255853313 378 (.node .leaf 255853314 255853314 7825 .leaf)) 255853319 255853319 380 (.node (.node .leaf 255853324 255853324 382 .leaf) 255853347 255853347 7827 (.node .leaf 255853361 255853361 7829 .leaf))) 352322304 352322304 8173 (.node (.node (.node .leaf 352322305 352322305 901 .leaf) 352322370 352322370 8129 (.node .leaf 406848256 406848256 7846 .leaf)) 406848257 406848257 7844 (.node (.node .leaf 406848259 406848259 7850 .leaf) 406848265 406848265 7848 .leaf)))) 411042564 411042564 478 (.node (.node (.node (.node (.node .leaf 413139713 413139713 506 .leaf) 415236865 415236865 508 (.node .leaf 415236868 415236868 482 .leaf)) 417334017 417334017 7688 (.node (.node .leaf 423625472 423625472 7872 .leaf) 423625473 423625473 7870 (.node .leaf 423625475 423625475 7876 .leaf))) 423625481 423625481 7874 (.node (.node (.node .leaf 434111233 434111233 7726 .leaf) 444596992 444596992 7890 (.node .leaf 444596993 444596993 7888 .leaf)) 444596995 444596995 7894 (.node (.node .leaf 444597001 444597001 7892 .leaf) 446694145 446694145 7756 .leaf))) 446694148 446694148 556 (.node (.node (.node (.node .leaf 446694152 446694152 7758 .leaf) 448791300 448791300 554 (.node .leaf 452985601 452985601 510 .leaf)) 461374208 461374208 475 (.node (.node .leaf 461374209 461374209 471 .leaf) 461374212 461374212 469 .leaf)) 461374220 461374220 473 (.node (.node (.node .leaf 473957120 473957120 7847 .leaf) 473957121 473957121 7845 (.node .leaf 473957123 473957123 7851 .leaf)) 473957129 473957129 7849 (.node (.node .leaf 478151428 478151428 479 .leaf) 480248577 480248577 507 .leaf))))) 482345729 482345729 509 (.node (.node (.node (.node (.node (.node .leaf 482345732 482345732 483 .leaf) 484442881 484442881 7689 (.node .leaf 490734336 490734336 7873 .leaf)) 490734337 490734337 7871 (.node (.node .leaf 490734339 490734339 7877 .leaf) 490734345 490734345 7875 (.node .leaf 501220097 501220097 7727 .leaf))) 511705856 511705856 7891 (.node (.node (.node .leaf 511705857 511705857 7889 .leaf) 511705859 511705859 7895 (.node .leaf 511705865 511705865 7893 .leaf)) 513803009 513803009 7757 (.node (.node .leaf 513803012 513803012 557 .leaf) 513803016 513803016 7759 .leaf))) 515900164 515900164 555 (.node (.node (.node (.node .leaf 520094465 520094465 511 .leaf) 528483072 528483072 476 (.node .leaf 528483073 528483073 472 .leaf)) 528483076 528483076 470 (.node (.node .leaf 528483084 528483084 474 .leaf) 541065984 541065984 7856 (.node .leaf 541065985 541065985 7854 .leaf))) 541065987 541065987 7860 (.node (.node (.node .leaf 541065993 541065993 7858 .leaf) 543163136 543163136 7857 (.node .leaf 543163137 543163137 7855 .leaf)) 543163139 543163139 7861 (.node (.node .leaf 543163145 543163145 7859 .leaf) 574620416 574620416 7700 .leaf)))) 574620417 574620417 7702 (.node (.node (.node (.node (.node .leaf 576717568 576717568 7701 .leaf) 576717569 576717569 7703 (.node .leaf 696255232 696255232 7760 .leaf)) 696255233 696255233 7762 (.node (.node .leaf 698352384 698352384 7761 .leaf) 698352385 698352385 7763 (.node .leaf 725615367 725615367 7780 .leaf))) 727712519 727712519 7781 (.node (.node (.node .leaf 738198279 738198279 7782 .leaf) 740295431 740295431 7783 (.node .leaf 754975489 754975489 7800 .leaf)) 757072641 757072641 7801 (.node (.node .leaf 759169800 759169800 7802 .leaf) 761266952 761266952 7803 .leaf))) 803209991 803209991 7835 (.node (.node (.node (.node .leaf 872416000 872416000 7900 .leaf) 872416001 872416001 7898 (.node .leaf 872416003 872416003 7904 .leaf)) 872416009 872416009 7902 (.node (.node .leaf 872416035 872416035 7906 .leaf) 874513152 874513152 7901 .leaf)) 874513153 874513153 7899 (.node (.node (.node .leaf 874513155 874513155 7905 .leaf) 874513161 874513161 7903 (.node .leaf 874513187 874513187 7907 .leaf)) 903873280 903873280 7914 (.node (.node .leaf 903873281 903873281 7912 .leaf) 903873283 903873283 7918 .leaf))))))

def pairTree4 : RTree Nat := (.node (.node (.node (.node (.node (.node (.node .leaf 903873315 903873315 7920 .leaf) 905970432 905970432 7915 (.node .leaf 905970433 905970433 7913 .leaf)) 905970435 905970435 7919 (.node (.node .leaf 905970441 905970441 7917 .leaf) 905970467 905970467 7921 (.node .leaf 920650508 920650508 494 .leaf))) 1027605252 1027605252 492 (.node (.node (.node .leaf 1029702404 1029702404 493 .leaf) 1153434372 1153434372 480 (.node .leaf 1155531524 1155531524 481 .leaf)) 1157628678 1157628678 7708 (.node (.node .leaf 1159725830 1159725830 7709 .leaf) 1170211588 1170211588 560 .leaf))) 1172308740 1172308740 561 (.node (.node (.node (.node .leaf 1379926796 1379926796 495 .leaf) 1627390721 1627390721 836 (.node .leaf 1914700544 1914700544 8122 .leaf)) 1914700545 1914700545 902 (.node (.node .leaf 1914700548 1914700548 8121 .leaf) 1914700550 1914700550 8120 (.node .leaf 1914700563 1914700563 7944 .leaf))) 1914700564 1914700564 7945 (.node (.node (.node .leaf 1914700613 1914700613 8124 .leaf) 1923089152 1923089152 8136 (.node .leaf 1923089153 1923089153 904 .leaf)) 1923089171 1923089171 7960 (.node (.node .leaf 1923089172 1923089172 7961 .leaf) 1927283456 1927283456 8138 .leaf)))) 1927283457 1927283457 905 (.node (.node (.node (.node (.node .leaf 1927283475 1927283475 7976 .leaf) 1927283476 1927283476 7977 (.node .leaf 1927283525 1927283525 8140 .leaf)) 1931477760 1931477760 8154 (.node (.node .leaf 1931477761 1931477761 906 .leaf) 1931477764 1931477764 8153 (.node .leaf 1931477766 1931477766 8152 .leaf))) 1931477768 1931477768 938 (.node (.node (.node .leaf 1931477779 1931477779 7992 .leaf) 1931477780 1931477780 7993 (.node .leaf 1944060672 1944060672 8184 .leaf)) 1944060673 1944060673 908 (.node (.node .leaf 1944060691 1944060691 8008 .leaf) 1944060692 1944060692 8009 .leaf))) 1948254996 1948254996 8172 (.node (.node (.node (.node .leaf 1956643584 1956643584 8170 .leaf) 1956643585 1956643585 910 (.node .leaf 1956643588 1956643588 8169 .leaf)) 1956643590 1956643590 8168 (.node (.node .leaf 1956643592 1956643592 939 .leaf) 1956643604 1956643604 8025 (.node .leaf 1965032192 1965032192 8186 .leaf))) 1965032193 1965032193 911 (.node (.node (.node .leaf 1965032211 1965032211 8040 .leaf) 1965032212 1965032212 8041 (.node .leaf 1965032261 1965032261 8188 .leaf)) 1971323717 1971323717 8116 (.node (.node .leaf 1975518021 1975518021 8132 .leaf) 1981809408 1981809408 8048 .leaf))))) 1981809409 1981809409 940 (.node (.node (.node (.node (.node (.node .leaf 1981809412 1981809412 8113 .leaf) 1981809414 1981809414 8112 (.node .leaf 1981809427 1981809427 7936 .leaf)) 1981809428 1981809428 7937 (.node (.node .leaf 1981809474 1981809474 8118 .leaf) 1981809477 1981809477 8115 (.node .leaf 1990198016 1990198016 8050 .leaf))) 1990198017 1990198017 941 (.node (.node (.node .leaf 1990198035 1990198035 7952 .leaf) 1990198036 1990198036 7953 (.node .leaf 1994392320 1994392320 8052 .leaf)) 1994392321 1994392321 942 (.node (.node .leaf 1994392339 1994392339 7968 .leaf) 1994392340 1994392340 7969 .leaf))) 1994392386 1994392386 8134 (.node (.node (.node (.node .leaf 1994392389 1994392389 8131 .leaf) 1998586624 1998586624 8054 (.node .leaf 1998586625 1998586625 943 .leaf)) 1998586628 1998586628 8145 (.node (.node .leaf 1998586630 1998586630 8144 .leaf) 1998586632 1998586632 970 (.node .leaf 1998586643 1998586643 7984 .leaf))) 1998586644 1998586644 7985 (.node (.node (.node .leaf 1998586690 1998586690 8150 .leaf) 2011169536 2011169536 8056 (.node .leaf 2011169537 2011169537 972 .leaf)) 2011169555 2011169555 8000 (.node (.node .leaf 2011169556 2011169556 8001 .leaf) 2015363859 2015363859 8164 .leaf)))) 2015363860 2015363860 8165 (.node (.node (.node (.node (.node .leaf 2023752448 2023752448 8058 .leaf) 2023752449 2023752449 973 (.node .leaf 2023752452 2023752452 8161 .leaf)) 2023752454 2023752454 8160 (.node (.node .leaf 2023752456 2023752456 971 .leaf) 2023752467 2023752467 8016 (.node .leaf 2023752468 2023752468 8017 .leaf))) 2023752514 2023752514 8166 (.node (.node (.node .leaf 2032141056 2032141056 8060 .leaf) 2032141057 2032141057 974 (.node .leaf 2032141075 2032141075 8032 .leaf)) 2032141076 2032141076 8033 (.node (.node .leaf 2032141122 2032141122 8182 .leaf) 2032141125 2032141125 8179 .leaf))) 2034238208 2034238208 8146 (.node (.node (.node (.node .leaf 2034238209 2034238209 912 .leaf) 2034238274 2034238274 8151 (.node .leaf 2036335360 2036335360 8162 .leaf)) 2036335361 2036335361 944 (.node (.node .leaf 2036335426 2036335426 8167 .leaf) 2042626885 2042626885 8180 .leaf)) 2051015425 2051015425 979 (.node (.node (.node .leaf 2051015432 2051015432 980 .leaf) 2160067336 2160067336 1031 (.node .leaf 2181038854 2181038854 1232 .leaf)) 2181038856 2181038856 1234 (.node (.node .leaf 2187330305 2187330305 1027 .leaf) 2191524608 2191524608 1024 .leaf))))))

def pairTree5 : RTree Nat := (.node (.node (.node (.node (.node (.node (.node .leaf 2191524616 2191524616 1025 .leaf) 2193621766 2193621766 1217 (.node .leaf 2193621768 2193621768 1244 .leaf)) 2195718920 2195718920 1246 (.node (.node .leaf 2197816064 2197816064 1037 .leaf) 2197816068 2197816068 1250 (.node .leaf 2197816070 2197816070 1049 .leaf))) 2197816072 2197816072 1252 (.node (.node (.node .leaf 2202010369 2202010369 1036 .leaf) 2210398984 2210398984 1254 (.node .leaf 2220884740 2220884740 1262 .leaf)) 2220884742 2220884742 1038 (.node (.node .leaf 2220884744 2220884744 1264 .leaf) 2220884747 2220884747 1266 .leaf))) 2229273352 2229273352 1268 (.node (.node (.node (.node .leaf 2237661960 2237661960 1272 .leaf) 2241856264 2241856264 1260 (.node .leaf 2248147718 2248147718 1233 .leaf)) 2248147720 2248147720 1235 (.node (.node .leaf 2254439169 2254439169 1107 .leaf) 2258633472 2258633472 1104 (.node .leaf 2258633478 2258633478 1239 .leaf))) 2258633480 2258633480 1105 (.node (.node (.node .leaf 2260730630 2260730630 1218 .leaf) 2260730632 2260730632 1245 (.node .leaf 2262827784 2262827784 1247 .leaf)) 2264924928 2264924928 1117 (.node (.node .leaf 2264924932 2264924932 1251 .leaf) 2264924934 2264924934 1081 .leaf)))) 2264924936 2264924936 1253 (.node (.node (.node (.node (.node .leaf 2269119233 2269119233 1116 .leaf) 2277507848 2277507848 1255 (.node .leaf 2287993604 2287993604 1263 .leaf)) 2287993606 2287993606 1118 (.node (.node .leaf 2287993608 2287993608 1265 .leaf) 2287993611 2287993611 1267 (.node .leaf 2296382216 2296382216 1269 .leaf))) 2304770824 2304770824 1273 (.node (.node (.node .leaf 2308965128 2308965128 1261 .leaf) 2327839496 2327839496 1111 (.node .leaf 2390754063 2390754063 1142 .leaf)) 2392851215 2392851215 1143 (.node (.node .leaf 2600469256 2600469256 1242 .leaf) 2602566408 2602566408 1243 .leaf))) 2634023688 2634023688 1258 (.node (.node (.node (.node .leaf 2636120840 2636120840 1259 .leaf) 3303016019 3303016019 1570 (.node .leaf 3303016020 3303016020 1571 .leaf)) 3303016021 3303016021 1573 (.node (.node .leaf 3372222036 3372222036 1572 .leaf) 3376416340 3376416340 1574 .leaf)) 3625977428 3625977428 1730 (.node (.node (.node .leaf 3661629012 3661629012 1747 .leaf) 3667920468 3667920468 1728 (.node .leaf 4915726652 4915726652 2345 .leaf)) 4932503868 4932503868 2353 (.node (.node .leaf 4938795324 4938795324 2356 .leaf) 5249173950 5249173950 2507 .leaf))))) 5249173975 5249173975 2508 (.node (.node (.node (.node (.node (.node .leaf 6054480702 6054480702 2891 .leaf) 6054480726 6054480726 2888 (.node .leaf 6054480727 6054480727 2892 .leaf)) 6211767255 6211767255 2964 (.node (.node .leaf 6320819134 6320819134 3018 .leaf) 6320819159 6320819159 3020 (.node .leaf 6322916286 6322916286 3019 .leaf))) 6589254742 6589254742 3144 (.node (.node (.node .leaf 6843010261 6843010261 3264 .leaf) 6857690306 6857690306 3274 (.node .leaf 6857690325 6857690325 3271 .leaf)) 6857690326 6857690326 3272 (.node (.node .leaf 6866078933 6866078933 3275 .leaf) 7126125886 7126125886 3402 .leaf))) 7126125911 7126125911 3404 (.node (.node (.node (.node .leaf 7128223038 7128223038 3403 .leaf) 7434407370 7434407370 3546 (.node .leaf 7434407375 7434407375 3548 .leaf)) 7434407391 7434407391 3550 (.node (.node .leaf 7440698826 7440698826 3549 .leaf) 8290045810 8290045810 3955 (.node .leaf 8290045812 8290045812 3957 .leaf))) 8290045824 8290045824 3969 (.node (.node (.node .leaf 8667533358 8667533358 4134 .leaf) 14506007349 14506007349 6918 (.node .leaf 14510201653 14510201653 6920 .leaf)) 14514395957 14514395957 6922 (.node (.node .leaf 14518590261 14518590261 6924 .leaf) 14522784565 14522784565 6926 .leaf)))) 14531173173 14531173173 6930 (.node (.node (.node (.node (.node .leaf 14617156405 14617156405 6971 .leaf) 14621350709 14621350709 6973 (.node .leaf 14625545013 14625545013 6976 .leaf)) 14627642165 14627642165 6977 (.node (.node .leaf 14633933621 14633933621 6979 .leaf) 16219374340 16219374340 7736 (.node .leaf 16221471492 16221471492 7737 .leaf))) 16294871812 16294871812 7772 (.node (.node (.node .leaf 16296968964 16296968964 7773 .leaf) 16311649031 16311649031 7784 (.node .leaf 16313746183 16313746183 7785 .leaf)) 16441672450 16441672450 7852 (.node (.node .leaf 16441672454 16441672454 7862 .leaf) 16443769602 16443769602 7853 .leaf))) 16443769606 16443769606 7863 (.node (.node (.node (.node .leaf 16492004098 16492004098 7878 .leaf) 16494101250 16494101250 7879 (.node .leaf 16533947138 16533947138 7896 .leaf)) 16536044290 16536044290 7897 (.node (.node .leaf 16642999040 16642999040 7938 .leaf) 16642999041 16642999041 7940 .leaf)) 16642999106 16642999106 7942 (.node (.node (.node .leaf 16642999109 16642999109 8064 .leaf) 16645096192 16645096192 7939 (.node .leaf 16645096193 16645096193 7941 .leaf)) 16645096258 16645096258 7943 (.node (.node .leaf 16645096261 16645096261 8065 .leaf) 16647193413 16647193413 8066 .leaf))))))

def pairTree6 : RTree Nat := (.node (.node (.node (.node (.node (.node (.node .leaf 16651387717 16651387717 8068 .leaf) 16653484869 16653484869 8069 (.node .leaf 16655582021 16655582021 8070 .leaf)) 16657679173 16657679173 8071 (.node (.node .leaf 16659776256 16659776256 7946 .leaf) 16659776257 16659776257 7948 (.node .leaf 16659776322 16659776322 7950 .leaf))) 16659776325 16659776325 8072 (.node (.node (.node .leaf 16661873408 16661873408 7947 .leaf) 16661873409 16661873409 7949 (.node .leaf 16661873474 16661873474 7951 .leaf)) 16661873477 16661873477 8073 (.node (.node .leaf 16663970629 16663970629 8074 .leaf) 16666067781 16666067781 8075 .leaf))) 16668164933 16668164933 8076 (.node (.node (.node (.node .leaf 16670262085 16670262085 8077 .leaf) 16672359237 16672359237 8078 (.node .leaf 16674456389 16674456389 8079 .leaf)) 16676553472 16676553472 7954 (.node (.node .leaf 16676553473 16676553473 7956 .leaf) 16678650624 16678650624 7955 (.node .leaf 16678650625 16678650625 7957 .leaf))) 16693330688 16693330688 7962 (.node (.node (.node .leaf 16693330689 16693330689 7964 .leaf) 16695427840 16695427840 7963 (.node .leaf 16695427841 16695427841 7965 .leaf)) 16710107904 16710107904 7970 (.node (.node .leaf 16710107905 16710107905 7972 .leaf) 16710107970 16710107970 7974 .leaf)))) 16710107973 16710107973 8080 (.node (.node (.node (.node (.node .leaf 16712205056 16712205056 7971 .leaf) 16712205057 16712205057 7973 (.node .leaf 16712205122 16712205122 7975 .leaf)) 16712205125 16712205125 8081 (.node (.node .leaf 16714302277 16714302277 8082 .leaf) 16716399429 16716399429 8083 (.node .leaf 16718496581 16718496581 8084 .leaf))) 16720593733 16720593733 8085 (.node (.node (.node .leaf 16722690885 16722690885 8086 .leaf) 16724788037 16724788037 8087 (.node .leaf 16726885120 16726885120 7978 .leaf)) 16726885121 16726885121 7980 (.node (.node .leaf 16726885186 16726885186 7982 .leaf) 16726885189 16726885189 8088 .leaf))) 16728982272 16728982272 7979 (.node (.node (.node (.node .leaf 16728982273 16728982273 7981 .leaf) 16728982338 16728982338 7983 (.node .leaf 16728982341 16728982341 8089 .leaf)) 16731079493 16731079493 8090 (.node (.node .leaf 16733176645 16733176645 8091 .leaf) 16735273797 16735273797 8092 .leaf)) 16737370949 16737370949 8093 (.node (.node (.node .leaf 16739468101 16739468101 8094 .leaf) 16741565253 16741565253 8095 (.node .leaf 16743662336 16743662336 7986 .leaf)) 16743662337 16743662337 7988 (.node (.node .leaf 16743662402 16743662402 7990 .leaf) 16745759488 16745759488 7987 .leaf))))) 16745759489 16745759489 7989 (.node (.node (.node (.node (.node (.node .leaf 16745759554 16745759554 7991 .leaf) 16760439552 16760439552 7994 (.node .leaf 16760439553 16760439553 7996 .leaf)) 16760439618 16760439618 7998 (.node (.node .leaf 16762536704 16762536704 7995 .leaf) 16762536705 16762536705 7997 (.node .leaf 16762536770 16762536770 7999 .leaf))) 16777216768 16777216768 8002 (.node (.node (.node .leaf 16777216769 16777216769 8004 .leaf) 16779313920 16779313920 8003 (.node .leaf 16779313921 16779313921 8005 .leaf)) 16793993984 16793993984 8010 (.node (.node .leaf 16793993985 16793993985 8012 .leaf) 16796091136 16796091136 8011 .leaf))) 16796091137 16796091137 8013 (.node (.node (.node (.node .leaf 16810771200 16810771200 8018 .leaf) 16810771201 16810771201 8020 (.node .leaf 16810771266 16810771266 8022 .leaf)) 16812868352 16812868352 8019 (.node (.node .leaf 16812868353 16812868353 8021 .leaf) 16812868418 16812868418 8023 (.node .leaf 16829645568 16829645568 8027 .leaf))) 16829645569 16829645569 8029 (.node (.node (.node .leaf 16829645634 16829645634 8031 .leaf) 16844325632 16844325632 8034 (.node .leaf 16844325633 16844325633 8036 .leaf)) 16844325698 16844325698 8038 (.node (.node .leaf 16844325701 16844325701 8096 .leaf) 16846422784 16846422784 8035 .leaf)))) 16846422785 16846422785 8037 (.node (.node (.node (.node (.node .leaf 16846422850 16846422850 8039 .leaf) 16846422853 16846422853 8097 (.node .leaf 16848520005 16848520005 8098 .leaf)) 16850617157 16850617157 8099 (.node (.node .leaf 16852714309 16852714309 8100 .leaf) 16854811461 16854811461 8101 (.node .leaf 16856908613 16856908613 8102 .leaf))) 16859005765 16859005765 8103 (.node (.node (.node .leaf 16861102848 16861102848 8042 .leaf) 16861102849 16861102849 8044 (.node .leaf 16861102914 16861102914 8046 .leaf)) 16861102917 16861102917 8104 (.node (.node .leaf 16863200000 16863200000 8043 .leaf) 16863200001 16863200001 8045 .leaf))) 16863200066 16863200066 8047 (.node (.node (.node (.node .leaf 16863200069 16863200069 8105 .leaf) 16865297221 16865297221 8106 (.node .leaf 16867394373 16867394373 8107 .leaf)) 16869491525 16869491525 8108 (.node (.node .leaf 16871588677 16871588677 8109 .leaf) 16873685829 16873685829 8110 .leaf)) 16875782981 16875782981 8111 (.node (.node (.node .leaf 16877880133 16877880133 8114 .leaf) 16886268741 16886268741 8130 (.node .leaf 16903045957 16903045957 8178 .leaf)) 17024680773 17024680773 8119 (.node (.node .leaf 17043555072 17043555072 8141 .leaf) 17043555073 17043555073 8142 .leaf))))))

def pairTree7 : RTree Nat := (.node (.node (.node (.node (.node (.node (.node .leaf 17058235205 17058235205 8135 .leaf) 17158898501 17158898501 8183 (.node .leaf 17175675648 17175675648 8157 .leaf)) 17175675649 17175675649 8158 (.node (.node .leaf 17175675714 17175675714 8159 .leaf) 18018730808 18018730808 8602 (.node .leaf 18022925112 18022925112 8603 .leaf))) 18027119416 18027119416 8622 (.node (.node (.node .leaf 18152948536 18152948536 8653 .leaf) 18157142840 18157142840 8655 (.node .leaf 18161337144 18161337144 8654 .leaf)) 18259903288 18259903288 8708 (.node (.node .leaf 18270389048 18270389048 8713 .leaf) 18276680504 18276680504 8716 .leaf))) 18327012152 18327012152 8740 (.node (.node (.node (.node .leaf 18331206456 18331206456 8742 .leaf) 18379440952 18379440952 8769 (.node .leaf 18394121016 18394121016 8772 .leaf)) 18398315320 18398315320 8775 (.node (.node .leaf 18404606776 18404606776 8777 .leaf) 18415092536 18415092536 8813 (.node .leaf 18457035576 18457035576 8802 .leaf))) 18463327032 18463327032 8816 (.node (.node (.node .leaf 18465424184 18465424184 8817 .leaf) 18492687160 18492687160 8820 (.node .leaf 18494784312 18494784312 8821 .leaf)) 18501075768 18501075768 8824 (.node (.node .leaf 18503172920 18503172920 8825 .leaf) 18509464376 18509464376 8832 .leaf)))) 18511561528 18511561528 8833 (.node (.node (.node (.node (.node .leaf 18513658680 18513658680 8928 .leaf) 18515755832 18515755832 8929 (.node .leaf 18526241592 18526241592 8836 .leaf)) 18528338744 18528338744 8837 (.node (.node .leaf 18534630200 18534630200 8840 .leaf) 18536727352 18536727352 8841 (.node .leaf 18557698872 18557698872 8930 .leaf))) 18559796024 18559796024 8931 (.node (.node (.node .leaf 18593350456 18593350456 8876 .leaf) 18605933368 18605933368 8877 (.node .leaf 18608030520 18608030520 8878 .leaf)) 18612224824 18612224824 8879 (.node (.node .leaf 18626904888 18626904888 8938 .leaf) 18629002040 18629002040 8939 .leaf))) 18631099192 18631099192 8940 (.node (.node (.node (.node .leaf 18633196344 18633196344 8941 .leaf) 25916616857 25916616857 12436 (.node .leaf 25927102617 25927102617 12364 .leaf)) 25931296921 25931296921 12366 (.node (.node .leaf 25935491225 25935491225 12368 .leaf) 25939685529 25939685529 12370 .leaf)) 25943879833 25943879833 12372 (.node (.node (.node .leaf 25948074137 25948074137 12374 .leaf) 25952268441 25952268441 12376 (.node .leaf 25956462745 25956462745 12378 .leaf)) 25960657049 25960657049 12380 (.node (.node .leaf 25964851353 25964851353 12382 .leaf) 25969045657 25969045657 12384 .leaf))))) 25973239961 25973239961 12386 (.node (.node (.node (.node (.node (.node .leaf 25979531417 25979531417 12389 .leaf) 25983725721 25983725721 12391 (.node .leaf 25987920025 25987920025 12393 .leaf)) 26002600089 26002600089 12400 (.node (.node .leaf 26002600090 26002600090 12401 .leaf) 26008891545 26008891545 12403 (.node .leaf 26008891546 26008891546 12404 .leaf))) 26015183001 26015183001 12406 (.node (.node (.node .leaf 26015183002 26015183002 12407 .leaf) 26021474457 26021474457 12409 (.node .leaf 26021474458 26021474458 12410 .leaf)) 26027765913 26027765913 12412 (.node (.node .leaf 26027765914 26027765914 12413 .leaf) 26099069081 26099069081 12446 .leaf))) 26117943449 26117943449 12532 (.node (.node (.node (.node .leaf 26128429209 26128429209 12460 .leaf) 26132623513 26132623513 12462 (.node .leaf 26136817817 26136817817 12464 .leaf)) 26141012121 26141012121 12466 (.node (.node .leaf 26145206425 26145206425 12468 .leaf) 26149400729 26149400729 12470 (.node .leaf 26153595033 26153595033 12472 .leaf))) 26157789337 26157789337 12474 (.node (.node (.node .leaf 26161983641 26161983641 12476 .leaf) 26166177945 26166177945 12478 (.node .leaf 26170372249 26170372249 12480 .leaf)) 26174566553 26174566553 12482 (.node (.node .leaf 26180858009 26180858009 12485 .leaf) 26185052313 26185052313 12487 .leaf)))) 26189246617 26189246617 12489 (.node (.node (.node (.node (.node .leaf 26203926681 26203926681 12496 .leaf) 26203926682 26203926682 12497 (.node .leaf 26210218137 26210218137 12499 .leaf)) 26210218138 26210218138 12500 (.node (.node .leaf 26216509593 26216509593 12502 .leaf) 26216509594 26216509594 12503 (.node .leaf 26222801049 26222801049 12505 .leaf))) 26222801050 26222801050 12506 (.node (.node (.node .leaf 26229092505 26229092505 12508 .leaf) 26229092506 26229092506 12509 (.node .leaf 26271035545 26271035545 12535 .leaf)) 26273132697 26273132697 12536 (.node (.node .leaf 26275229849 26275229849 12537 .leaf) 26277327001 26277327001 12538 .leaf))) 26300395673 26300395673 12542 (.node (.node (.node (.node .leaf 146349822138 146349822138 69786 .leaf) 146354016442 146354016442 69788 (.node .leaf 146374987962 146374987962 69803 .leaf)) 146668589351 146668589351 69934 (.node (.node .leaf 146670686503 146670686503 69935 .leaf) 147788469054 147788469054 70475 .leaf)) 147788469079 147788469079 70476 (.node (.node (.node .leaf 148564415664 148564415664 70844 .leaf) 148564415674 148564415674 70843 (.node .leaf 148564415677 148564415677 70846 .leaf)) 149099189679 149099189679 71098 (.node (.node .leaf 149101286831 149101286831 71099 .leaf) 150971947312 150971947312 71992 .leaf))))))

/-- For fast lookup: the composite of `s` and `c` under the key `s * 2^21 + c`; shown equal to what the generator makes of the files. -/
def pairTree : RTree Nat := (.node (.node (.node pairTree0 165675811 165675811 7884 pairTree1) 216007425 216007425 501 (.node pairTree2 249561858 249561858 373 pairTree3)) 903873289 903873289 7916 (.node (.node pairTree4 2191524614 2191524614 1238 pairTree5) 16649290565 16649290565 8067 (.node pairTree6 17043555138 17043555138 8143 pairTree7)))

end Verif.Unidata
