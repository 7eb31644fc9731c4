import Verif.Model.UniGen
import Verif.Model.Categorize

/-! Written by tools/gen_idna.py from /repo/unicode/UnicodeData.txt. -/

namespace Verif.Unidata
open Verif.UniGen Verif.Categorize

/-- The general categories (charstr.h:135-166). -/
inductive Cat where
  | Cn | Cc | Cf | Co | Cs | Ll | Lm | Lo | Lt | Lu | Mc | Me | Mn | Nd | Nl | No | Pc | Pd | Pe | Pf | Pi | Po
  | Ps | Sc | Sk | Sm | So | Zl | Zp | Zs
  deriving DecidableEq, Repr

def categoryTable0 : RTree (Kind × Cat) := (.node (.node (.node (.node (.node (.node (.node .leaf 0 31 (.plain, .Cc) .leaf) 32 32 (.plain, .Zs) (.node .leaf 33 35 (.plain, .Po) .leaf)) 36 36 (.plain, .Sc) (.node (.node .leaf 37 39 (.plain, .Po) .leaf) 40 40 (.plain, .Ps) .leaf)) 41 41 (.plain, .Pe) (.node (.node (.node .leaf 42 42 (.plain, .Po) .leaf) 43 43 (.plain, .Sm) .leaf) 44 44 (.plain, .Po) (.node (.node .leaf 45 45 (.plain, .Pd) .leaf) 46 47 (.plain, .Po) .leaf))) 48 57 (.plain, .Nd) (.node (.node (.node (.node .leaf 58 59 (.plain, .Po) .leaf) 60 62 (.plain, .Sm) (.node .leaf 63 64 (.plain, .Po) .leaf)) 65 90 (.plain, .Lu) (.node (.node .leaf 91 91 (.plain, .Ps) .leaf) 92 92 (.plain, .Po) .leaf)) 93 93 (.plain, .Pe) (.node (.node (.node .leaf 94 94 (.plain, .Sk) .leaf) 95 95 (.plain, .Pc) .leaf) 96 96 (.plain, .Sk) (.node (.node .leaf 97 122 (.plain, .Ll) .leaf) 123 123 (.plain, .Ps) .leaf)))) 124 124 (.plain, .Sm) (.node (.node (.node (.node (.node .leaf 125 125 (.plain, .Pe) .leaf) 126 126 (.plain, .Sm) (.node .leaf 127 159 (.plain, .Cc) .leaf)) 160 160 (.plain, .Zs) (.node (.node .leaf 161 161 (.plain, .Po) .leaf) 162 165 (.plain, .Sc) .leaf)) 166 166 (.plain, .So) (.node (.node (.node .leaf 167 167 (.plain, .Po) .leaf) 168 168 (.plain, .Sk) .leaf) 169 169 (.plain, .So) (.node (.node .leaf 170 170 (.plain, .Lo) .leaf) 171 171 (.plain, .Pi) .leaf))) 172 172 (.plain, .Sm) (.node (.node (.node (.node .leaf 173 173 (.plain, .Cf) .leaf) 174 174 (.plain, .So) .leaf) 175 175 (.plain, .Sk) (.node (.node .leaf 176 176 (.plain, .So) .leaf) 177 177 (.plain, .Sm) .leaf)) 178 179 (.plain, .No) (.node (.node (.node .leaf 180 180 (.plain, .Sk) .leaf) 181 181 (.plain, .Ll) .leaf) 182 183 (.plain, .Po) (.node (.node .leaf 184 184 (.plain, .Sk) .leaf) 185 185 (.plain, .No) .leaf))))) 186 186 (.plain, .Lo) (.node (.node (.node (.node (.node (.node .leaf 187 187 (.plain, .Pf) .leaf) 188 190 (.plain, .No) (.node .leaf 191 191 (.plain, .Po) .leaf)) 192 214 (.plain, .Lu) (.node (.node .leaf 215 215 (.plain, .Sm) .leaf) 216 222 (.plain, .Lu) .leaf)) 223 246 (.plain, .Ll) (.node (.node (.node .leaf 247 247 (.plain, .Sm) .leaf) 248 255 (.plain, .Ll) .leaf) 256 256 (.plain, .Lu) (.node (.node .leaf 257 257 (.plain, .Ll) .leaf) 258 258 (.plain, .Lu) .leaf))) 259 259 (.plain, .Ll) (.node (.node (.node (.node .leaf 260 260 (.plain, .Lu) .leaf) 261 261 (.plain, .Ll) .leaf) 262 262 (.plain, .Lu) (.node (.node .leaf 263 263 (.plain, .Ll) .leaf) 264 264 (.plain, .Lu) .leaf)) 265 265 (.plain, .Ll) (.node (.node (.node .leaf 266 266 (.plain, .Lu) .leaf) 267 267 (.plain, .Ll) .leaf) 268 268 (.plain, .Lu) (.node (.node .leaf 269 269 (.plain, .Ll) .leaf) 270 270 (.plain, .Lu) .leaf)))) 271 271 (.plain, .Ll) (.node (.node (.node (.node (.node .leaf 272 272 (.plain, .Lu) .leaf) 273 273 (.plain, .Ll) (.node .leaf 274 274 (.plain, .Lu) .leaf)) 275 275 (.plain, .Ll) (.node (.node .leaf 276 276 (.plain, .Lu) .leaf) 277 277 (.plain, .Ll) .leaf)) 278 278 (.plain, .Lu) (.node (.node (.node .leaf 279 279 (.plain, .Ll) .leaf) 280 280 (.plain, .Lu) .leaf) 281 281 (.plain, .Ll) (.node (.node .leaf 282 282 (.plain, .Lu) .leaf) 283 283 (.plain, .Ll) .leaf))) 284 284 (.plain, .Lu) (.node (.node (.node (.node .leaf 285 285 (.plain, .Ll) .leaf) 286 286 (.plain, .Lu) .leaf) 287 287 (.plain, .Ll) (.node (.node .leaf 288 288 (.plain, .Lu) .leaf) 289 289 (.plain, .Ll) .leaf)) 290 290 (.plain, .Lu) (.node (.node (.node .leaf 291 291 (.plain, .Ll) .leaf) 292 292 (.plain, .Lu) .leaf) 293 293 (.plain, .Ll) (.node (.node .leaf 294 294 (.plain, .Lu) .leaf) 295 295 (.plain, .Ll) .leaf))))))

def categoryTable1 : RTree (Kind × Cat) := (.node (.node (.node (.node (.node (.node (.node .leaf 297 297 (.plain, .Ll) .leaf) 298 298 (.plain, .Lu) (.node .leaf 299 299 (.plain, .Ll) .leaf)) 300 300 (.plain, .Lu) (.node (.node .leaf 301 301 (.plain, .Ll) .leaf) 302 302 (.plain, .Lu) .leaf)) 303 303 (.plain, .Ll) (.node (.node (.node .leaf 304 304 (.plain, .Lu) .leaf) 305 305 (.plain, .Ll) .leaf) 306 306 (.plain, .Lu) (.node (.node .leaf 307 307 (.plain, .Ll) .leaf) 308 308 (.plain, .Lu) .leaf))) 309 309 (.plain, .Ll) (.node (.node (.node (.node .leaf 310 310 (.plain, .Lu) .leaf) 311 312 (.plain, .Ll) (.node .leaf 313 313 (.plain, .Lu) .leaf)) 314 314 (.plain, .Ll) (.node (.node .leaf 315 315 (.plain, .Lu) .leaf) 316 316 (.plain, .Ll) .leaf)) 317 317 (.plain, .Lu) (.node (.node (.node .leaf 318 318 (.plain, .Ll) .leaf) 319 319 (.plain, .Lu) .leaf) 320 320 (.plain, .Ll) (.node (.node .leaf 321 321 (.plain, .Lu) .leaf) 322 322 (.plain, .Ll) .leaf)))) 323 323 (.plain, .Lu) (.node (.node (.node (.node (.node .leaf 324 324 (.plain, .Ll) .leaf) 325 325 (.plain, .Lu) (.node .leaf 326 326 (.plain, .Ll) .leaf)) 327 327 (.plain, .Lu) (.node (.node .leaf 328 329 (.plain, .Ll) .leaf) 330 330 (.plain, .Lu) .leaf)) 331 331 (.plain, .Ll) (.node (.node (.node .leaf 332 332 (.plain, .Lu) .leaf) 333 333 (.plain, .Ll) .leaf) 334 334 (.plain, .Lu) (.node (.node .leaf 335 335 (.plain, .Ll) .leaf) 336 336 (.plain, .Lu) .leaf))) 337 337 (.plain, .Ll) (.node (.node (.node (.node .leaf 338 338 (.plain, .Lu) .leaf) 339 339 (.plain, .Ll) .leaf) 340 340 (.plain, .Lu) (.node (.node .leaf 341 341 (.plain, .Ll) .leaf) 342 342 (.plain, .Lu) .leaf)) 343 343 (.plain, .Ll) (.node (.node (.node .leaf 344 344 (.plain, .Lu) .leaf) 345 345 (.plain, .Ll) .leaf) 346 346 (.plain, .Lu) (.node (.node .leaf 347 347 (.plain, .Ll) .leaf) 348 348 (.plain, .Lu) .leaf))))) 349 349 (.plain, .Ll) (.node (.node (.node (.node (.node (.node .leaf 350 350 (.plain, .Lu) .leaf) 351 351 (.plain, .Ll) (.node .leaf 352 352 (.plain, .Lu) .leaf)) 353 353 (.plain, .Ll) (.node (.node .leaf 354 354 (.plain, .Lu) .leaf) 355 355 (.plain, .Ll) .leaf)) 356 356 (.plain, .Lu) (.node (.node (.node .leaf 357 357 (.plain, .Ll) .leaf) 358 358 (.plain, .Lu) .leaf) 359 359 (.plain, .Ll) (.node (.node .leaf 360 360 (.plain, .Lu) .leaf) 361 361 (.plain, .Ll) .leaf))) 362 362 (.plain, .Lu) (.node (.node (.node (.node .leaf 363 363 (.plain, .Ll) .leaf) 364 364 (.plain, .Lu) .leaf) 365 365 (.plain, .Ll) (.node (.node .leaf 366 366 (.plain, .Lu) .leaf) 367 367 (.plain, .Ll) .leaf)) 368 368 (.plain, .Lu) (.node (.node (.node .leaf 369 369 (.plain, .Ll) .leaf) 370 370 (.plain, .Lu) .leaf) 371 371 (.plain, .Ll) (.node (.node .leaf 372 372 (.plain, .Lu) .leaf) 373 373 (.plain, .Ll) .leaf)))) 374 374 (.plain, .Lu) (.node (.node (.node (.node (.node .leaf 375 375 (.plain, .Ll) .leaf) 376 377 (.plain, .Lu) (.node .leaf 378 378 (.plain, .Ll) .leaf)) 379 379 (.plain, .Lu) (.node (.node .leaf 380 380 (.plain, .Ll) .leaf) 381 381 (.plain, .Lu) .leaf)) 382 384 (.plain, .Ll) (.node (.node (.node .leaf 385 386 (.plain, .Lu) .leaf) 387 387 (.plain, .Ll) .leaf) 388 388 (.plain, .Lu) (.node (.node .leaf 389 389 (.plain, .Ll) .leaf) 390 391 (.plain, .Lu) .leaf))) 392 392 (.plain, .Ll) (.node (.node (.node (.node .leaf 393 395 (.plain, .Lu) .leaf) 396 397 (.plain, .Ll) .leaf) 398 401 (.plain, .Lu) (.node (.node .leaf 402 402 (.plain, .Ll) .leaf) 403 404 (.plain, .Lu) .leaf)) 405 405 (.plain, .Ll) (.node (.node (.node .leaf 406 408 (.plain, .Lu) .leaf) 409 411 (.plain, .Ll) .leaf) 412 413 (.plain, .Lu) (.node (.node .leaf 414 414 (.plain, .Ll) .leaf) 415 416 (.plain, .Lu) .leaf))))))

def categoryTable2 : RTree (Kind × Cat) := (.node (.node (.node (.node (.node (.node (.node .leaf 418 418 (.plain, .Lu) .leaf) 419 419 (.plain, .Ll) (.node .leaf 420 420 (.plain, .Lu) .leaf)) 421 421 (.plain, .Ll) (.node (.node .leaf 422 423 (.plain, .Lu) .leaf) 424 424 (.plain, .Ll) .leaf)) 425 425 (.plain, .Lu) (.node (.node (.node .leaf 426 427 (.plain, .Ll) .leaf) 428 428 (.plain, .Lu) .leaf) 429 429 (.plain, .Ll) (.node (.node .leaf 430 431 (.plain, .Lu) .leaf) 432 432 (.plain, .Ll) .leaf))) 433 435 (.plain, .Lu) (.node (.node (.node (.node .leaf 436 436 (.plain, .Ll) .leaf) 437 437 (.plain, .Lu) (.node .leaf 438 438 (.plain, .Ll) .leaf)) 439 440 (.plain, .Lu) (.node (.node .leaf 441 442 (.plain, .Ll) .leaf) 443 443 (.plain, .Lo) .leaf)) 444 444 (.plain, .Lu) (.node (.node (.node .leaf 445 447 (.plain, .Ll) .leaf) 448 451 (.plain, .Lo) .leaf) 452 452 (.plain, .Lu) (.node (.node .leaf 453 453 (.plain, .Lt) .leaf) 454 454 (.plain, .Ll) .leaf)))) 455 455 (.plain, .Lu) (.node (.node (.node (.node (.node .leaf 456 456 (.plain, .Lt) .leaf) 457 457 (.plain, .Ll) (.node .leaf 458 458 (.plain, .Lu) .leaf)) 459 459 (.plain, .Lt) (.node (.node .leaf 460 460 (.plain, .Ll) .leaf) 461 461 (.plain, .Lu) .leaf)) 462 462 (.plain, .Ll) (.node (.node (.node .leaf 463 463 (.plain, .Lu) .leaf) 464 464 (.plain, .Ll) .leaf) 465 465 (.plain, .Lu) (.node (.node .leaf 466 466 (.plain, .Ll) .leaf) 467 467 (.plain, .Lu) .leaf))) 468 468 (.plain, .Ll) (.node (.node (.node (.node .leaf 469 469 (.plain, .Lu) .leaf) 470 470 (.plain, .Ll) .leaf) 471 471 (.plain, .Lu) (.node (.node .leaf 472 472 (.plain, .Ll) .leaf) 473 473 (.plain, .Lu) .leaf)) 474 474 (.plain, .Ll) (.node (.node (.node .leaf 475 475 (.plain, .Lu) .leaf) 476 477 (.plain, .Ll) .leaf) 478 478 (.plain, .Lu) (.node (.node .leaf 479 479 (.plain, .Ll) .leaf) 480 480 (.plain, .Lu) .leaf))))) 481 481 (.plain, .Ll) (.node (.node (.node (.node (.node (.node .leaf 482 482 (.plain, .Lu) .leaf) 483 483 (.plain, .Ll) (.node .leaf 484 484 (.plain, .Lu) .leaf)) 485 485 (.plain, .Ll) (.node (.node .leaf 486 486 (.plain, .Lu) .leaf) 487 487 (.plain, .Ll) .leaf)) 488 488 (.plain, .Lu) (.node (.node (.node .leaf 489 489 (.plain, .Ll) .leaf) 490 490 (.plain, .Lu) .leaf) 491 491 (.plain, .Ll) (.node (.node .leaf 492 492 (.plain, .Lu) .leaf) 493 493 (.plain, .Ll) .leaf))) 494 494 (.plain, .Lu) (.node (.node (.node (.node .leaf 495 496 (.plain, .Ll) .leaf) 497 497 (.plain, .Lu) .leaf) 498 498 (.plain, .Lt) (.node (.node .leaf 499 499 (.plain, .Ll) .leaf) 500 500 (.plain, .Lu) .leaf)) 501 501 (.plain, .Ll) (.node (.node (.node .leaf 502 504 (.plain, .Lu) .leaf) 505 505 (.plain, .Ll) .leaf) 506 506 (.plain, .Lu) (.node (.node .leaf 507 507 (.plain, .Ll) .leaf) 508 508 (.plain, .Lu) .leaf)))) 509 509 (.plain, .Ll) (.node (.node (.node (.node (.node .leaf 510 510 (.plain, .Lu) .leaf) 511 511 (.plain, .Ll) (.node .leaf 512 512 (.plain, .Lu) .leaf)) 513 513 (.plain, .Ll) (.node (.node .leaf 514 514 (.plain, .Lu) .leaf) 515 515 (.plain, .Ll) .leaf)) 516 516 (.plain, .Lu) (.node (.node (.node .leaf 517 517 (.plain, .Ll) .leaf) 518 518 (.plain, .Lu) .leaf) 519 519 (.plain, .Ll) (.node (.node .leaf 520 520 (.plain, .Lu) .leaf) 521 521 (.plain, .Ll) .leaf))) 522 522 (.plain, .Lu) (.node (.node (.node (.node .leaf 523 523 (.plain, .Ll) .leaf) 524 524 (.plain, .Lu) .leaf) 525 525 (.plain, .Ll) (.node (.node .leaf 526 526 (.plain, .Lu) .leaf) 527 527 (.plain, .Ll) .leaf)) 528 528 (.plain, .Lu) (.node (.node (.node .leaf 529 529 (.plain, .Ll) .leaf) 530 530 (.plain, .Lu) .leaf) 531 531 (.plain, .Ll) (.node (.node .leaf 532 532 (.plain, .Lu) .leaf) 533 533 (.plain, .Ll) .leaf))))))

def categoryTable3 : RTree (Kind × Cat) := (.node (.node (.node (.node (.node (.node (.node .leaf 535 535 (.plain, .Ll) .leaf) 536 536 (.plain, .Lu) (.node .leaf 537 537 (.plain, .Ll) .leaf)) 538 538 (.plain, .Lu) (.node (.node .leaf 539 539 (.plain, .Ll) .leaf) 540 540 (.plain, .Lu) .leaf)) 541 541 (.plain, .Ll) (.node (.node (.node .leaf 542 542 (.plain, .Lu) .leaf) 543 543 (.plain, .Ll) .leaf) 544 544 (.plain, .Lu) (.node (.node .leaf 545 545 (.plain, .Ll) .leaf) 546 546 (.plain, .Lu) .leaf))) 547 547 (.plain, .Ll) (.node (.node (.node (.node .leaf 548 548 (.plain, .Lu) .leaf) 549 549 (.plain, .Ll) .leaf) 550 550 (.plain, .Lu) (.node (.node .leaf 551 551 (.plain, .Ll) .leaf) 552 552 (.plain, .Lu) .leaf)) 553 553 (.plain, .Ll) (.node (.node (.node .leaf 554 554 (.plain, .Lu) .leaf) 555 555 (.plain, .Ll) .leaf) 556 556 (.plain, .Lu) (.node (.node .leaf 557 557 (.plain, .Ll) .leaf) 558 558 (.plain, .Lu) .leaf)))) 559 559 (.plain, .Ll) (.node (.node (.node (.node (.node .leaf 560 560 (.plain, .Lu) .leaf) 561 561 (.plain, .Ll) (.node .leaf 562 562 (.plain, .Lu) .leaf)) 563 569 (.plain, .Ll) (.node (.node .leaf 570 571 (.plain, .Lu) .leaf) 572 572 (.plain, .Ll) .leaf)) 573 574 (.plain, .Lu) (.node (.node (.node .leaf 575 576 (.plain, .Ll) .leaf) 577 577 (.plain, .Lu) .leaf) 578 578 (.plain, .Ll) (.node (.node .leaf 579 582 (.plain, .Lu) .leaf) 583 583 (.plain, .Ll) .leaf))) 584 584 (.plain, .Lu) (.node (.node (.node (.node .leaf 585 585 (.plain, .Ll) .leaf) 586 586 (.plain, .Lu) .leaf) 587 587 (.plain, .Ll) (.node (.node .leaf 588 588 (.plain, .Lu) .leaf) 589 589 (.plain, .Ll) .leaf)) 590 590 (.plain, .Lu) (.node (.node (.node .leaf 591 659 (.plain, .Ll) .leaf) 660 660 (.plain, .Lo) .leaf) 661 687 (.plain, .Ll) (.node (.node .leaf 688 705 (.plain, .Lm) .leaf) 706 709 (.plain, .Sk) .leaf))))) 710 721 (.plain, .Lm) (.node (.node (.node (.node (.node (.node .leaf 722 735 (.plain, .Sk) .leaf) 736 740 (.plain, .Lm) (.node .leaf 741 747 (.plain, .Sk) .leaf)) 748 748 (.plain, .Lm) (.node (.node .leaf 749 749 (.plain, .Sk) .leaf) 750 750 (.plain, .Lm) .leaf)) 751 767 (.plain, .Sk) (.node (.node (.node .leaf 768 879 (.plain, .Mn) .leaf) 880 880 (.plain, .Lu) .leaf) 881 881 (.plain, .Ll) (.node (.node .leaf 882 882 (.plain, .Lu) .leaf) 883 883 (.plain, .Ll) .leaf))) 884 884 (.plain, .Lm) (.node (.node (.node (.node .leaf 885 885 (.plain, .Sk) .leaf) 886 886 (.plain, .Lu) .leaf) 887 887 (.plain, .Ll) (.node (.node .leaf 890 890 (.plain, .Lm) .leaf) 891 893 (.plain, .Ll) .leaf)) 894 894 (.plain, .Po) (.node (.node (.node .leaf 895 895 (.plain, .Lu) .leaf) 900 901 (.plain, .Sk) .leaf) 902 902 (.plain, .Lu) (.node (.node .leaf 903 903 (.plain, .Po) .leaf) 904 906 (.plain, .Lu) .leaf)))) 908 908 (.plain, .Lu) (.node (.node (.node (.node (.node .leaf 910 911 (.plain, .Lu) .leaf) 912 912 (.plain, .Ll) (.node .leaf 913 929 (.plain, .Lu) .leaf)) 931 939 (.plain, .Lu) (.node (.node .leaf 940 974 (.plain, .Ll) .leaf) 975 975 (.plain, .Lu) .leaf)) 976 977 (.plain, .Ll) (.node (.node (.node .leaf 978 980 (.plain, .Lu) .leaf) 981 983 (.plain, .Ll) .leaf) 984 984 (.plain, .Lu) (.node (.node .leaf 985 985 (.plain, .Ll) .leaf) 986 986 (.plain, .Lu) .leaf))) 987 987 (.plain, .Ll) (.node (.node (.node (.node .leaf 988 988 (.plain, .Lu) .leaf) 989 989 (.plain, .Ll) .leaf) 990 990 (.plain, .Lu) (.node (.node .leaf 991 991 (.plain, .Ll) .leaf) 992 992 (.plain, .Lu) .leaf)) 993 993 (.plain, .Ll) (.node (.node (.node .leaf 994 994 (.plain, .Lu) .leaf) 995 995 (.plain, .Ll) .leaf) 996 996 (.plain, .Lu) (.node (.node .leaf 997 997 (.plain, .Ll) .leaf) 998 998 (.plain, .Lu) .leaf))))))

def categoryTable4 : RTree (Kind × Cat) := (.node (.node (.node (.node (.node (.node (.node .leaf 1000 1000 (.plain, .Lu) .leaf) 1001 1001 (.plain, .Ll) (.node .leaf 1002 1002 (.plain, .Lu) .leaf)) 1003 1003 (.plain, .Ll) (.node (.node .leaf 1004 1004 (.plain, .Lu) .leaf) 1005 1005 (.plain, .Ll) .leaf)) 1006 1006 (.plain, .Lu) (.node (.node (.node .leaf 1007 1011 (.plain, .Ll) .leaf) 1012 1012 (.plain, .Lu) .leaf) 1013 1013 (.plain, .Ll) (.node (.node .leaf 1014 1014 (.plain, .Sm) .leaf) 1015 1015 (.plain, .Lu) .leaf))) 1016 1016 (.plain, .Ll) (.node (.node (.node (.node .leaf 1017 1018 (.plain, .Lu) .leaf) 1019 1020 (.plain, .Ll) (.node .leaf 1021 1071 (.plain, .Lu) .leaf)) 1072 1119 (.plain, .Ll) (.node (.node .leaf 1120 1120 (.plain, .Lu) .leaf) 1121 1121 (.plain, .Ll) .leaf)) 1122 1122 (.plain, .Lu) (.node (.node (.node .leaf 1123 1123 (.plain, .Ll) .leaf) 1124 1124 (.plain, .Lu) .leaf) 1125 1125 (.plain, .Ll) (.node (.node .leaf 1126 1126 (.plain, .Lu) .leaf) 1127 1127 (.plain, .Ll) .leaf)))) 1128 1128 (.plain, .Lu) (.node (.node (.node (.node (.node .leaf 1129 1129 (.plain, .Ll) .leaf) 1130 1130 (.plain, .Lu) (.node .leaf 1131 1131 (.plain, .Ll) .leaf)) 1132 1132 (.plain, .Lu) (.node (.node .leaf 1133 1133 (.plain, .Ll) .leaf) 1134 1134 (.plain, .Lu) .leaf)) 1135 1135 (.plain, .Ll) (.node (.node (.node .leaf 1136 1136 (.plain, .Lu) .leaf) 1137 1137 (.plain, .Ll) .leaf) 1138 1138 (.plain, .Lu) (.node (.node .leaf 1139 1139 (.plain, .Ll) .leaf) 1140 1140 (.plain, .Lu) .leaf))) 1141 1141 (.plain, .Ll) (.node (.node (.node (.node .leaf 1142 1142 (.plain, .Lu) .leaf) 1143 1143 (.plain, .Ll) .leaf) 1144 1144 (.plain, .Lu) (.node (.node .leaf 1145 1145 (.plain, .Ll) .leaf) 1146 1146 (.plain, .Lu) .leaf)) 1147 1147 (.plain, .Ll) (.node (.node (.node .leaf 1148 1148 (.plain, .Lu) .leaf) 1149 1149 (.plain, .Ll) .leaf) 1150 1150 (.plain, .Lu) (.node (.node .leaf 1151 1151 (.plain, .Ll) .leaf) 1152 1152 (.plain, .Lu) .leaf))))) 1153 1153 (.plain, .Ll) (.node (.node (.node (.node (.node (.node .leaf 1154 1154 (.plain, .So) .leaf) 1155 1159 (.plain, .Mn) (.node .leaf 1160 1161 (.plain, .Me) .leaf)) 1162 1162 (.plain, .Lu) (.node (.node .leaf 1163 1163 (.plain, .Ll) .leaf) 1164 1164 (.plain, .Lu) .leaf)) 1165 1165 (.plain, .Ll) (.node (.node (.node .leaf 1166 1166 (.plain, .Lu) .leaf) 1167 1167 (.plain, .Ll) .leaf) 1168 1168 (.plain, .Lu) (.node (.node .leaf 1169 1169 (.plain, .Ll) .leaf) 1170 1170 (.plain, .Lu) .leaf))) 1171 1171 (.plain, .Ll) (.node (.node (.node (.node .leaf 1172 1172 (.plain, .Lu) .leaf) 1173 1173 (.plain, .Ll) .leaf) 1174 1174 (.plain, .Lu) (.node (.node .leaf 1175 1175 (.plain, .Ll) .leaf) 1176 1176 (.plain, .Lu) .leaf)) 1177 1177 (.plain, .Ll) (.node (.node (.node .leaf 1178 1178 (.plain, .Lu) .leaf) 1179 1179 (.plain, .Ll) .leaf) 1180 1180 (.plain, .Lu) (.node (.node .leaf 1181 1181 (.plain, .Ll) .leaf) 1182 1182 (.plain, .Lu) .leaf)))) 1183 1183 (.plain, .Ll) (.node (.node (.node (.node (.node .leaf 1184 1184 (.plain, .Lu) .leaf) 1185 1185 (.plain, .Ll) (.node .leaf 1186 1186 (.plain, .Lu) .leaf)) 1187 1187 (.plain, .Ll) (.node (.node .leaf 1188 1188 (.plain, .Lu) .leaf) 1189 1189 (.plain, .Ll) .leaf)) 1190 1190 (.plain, .Lu) (.node (.node (.node .leaf 1191 1191 (.plain, .Ll) .leaf) 1192 1192 (.plain, .Lu) .leaf) 1193 1193 (.plain, .Ll) (.node (.node .leaf 1194 1194 (.plain, .Lu) .leaf) 1195 1195 (.plain, .Ll) .leaf))) 1196 1196 (.plain, .Lu) (.node (.node (.node (.node .leaf 1197 1197 (.plain, .Ll) .leaf) 1198 1198 (.plain, .Lu) .leaf) 1199 1199 (.plain, .Ll) (.node (.node .leaf 1200 1200 (.plain, .Lu) .leaf) 1201 1201 (.plain, .Ll) .leaf)) 1202 1202 (.plain, .Lu) (.node (.node (.node .leaf 1203 1203 (.plain, .Ll) .leaf) 1204 1204 (.plain, .Lu) .leaf) 1205 1205 (.plain, .Ll) (.node (.node .leaf 1206 1206 (.plain, .Lu) .leaf) 1207 1207 (.plain, .Ll) .leaf))))))

def categoryTable5 : RTree (Kind × Cat) := (.node (.node (.node (.node (.node (.node (.node .leaf 1209 1209 (.plain, .Ll) .leaf) 1210 1210 (.plain, .Lu) (.node .leaf 1211 1211 (.plain, .Ll) .leaf)) 1212 1212 (.plain, .Lu) (.node (.node .leaf 1213 1213 (.plain, .Ll) .leaf) 1214 1214 (.plain, .Lu) .leaf)) 1215 1215 (.plain, .Ll) (.node (.node (.node .leaf 1216 1217 (.plain, .Lu) .leaf) 1218 1218 (.plain, .Ll) .leaf) 1219 1219 (.plain, .Lu) (.node (.node .leaf 1220 1220 (.plain, .Ll) .leaf) 1221 1221 (.plain, .Lu) .leaf))) 1222 1222 (.plain, .Ll) (.node (.node (.node (.node .leaf 1223 1223 (.plain, .Lu) .leaf) 1224 1224 (.plain, .Ll) .leaf) 1225 1225 (.plain, .Lu) (.node (.node .leaf 1226 1226 (.plain, .Ll) .leaf) 1227 1227 (.plain, .Lu) .leaf)) 1228 1228 (.plain, .Ll) (.node (.node (.node .leaf 1229 1229 (.plain, .Lu) .leaf) 1230 1231 (.plain, .Ll) .leaf) 1232 1232 (.plain, .Lu) (.node (.node .leaf 1233 1233 (.plain, .Ll) .leaf) 1234 1234 (.plain, .Lu) .leaf)))) 1235 1235 (.plain, .Ll) (.node (.node (.node (.node (.node .leaf 1236 1236 (.plain, .Lu) .leaf) 1237 1237 (.plain, .Ll) (.node .leaf 1238 1238 (.plain, .Lu) .leaf)) 1239 1239 (.plain, .Ll) (.node (.node .leaf 1240 1240 (.plain, .Lu) .leaf) 1241 1241 (.plain, .Ll) .leaf)) 1242 1242 (.plain, .Lu) (.node (.node (.node .leaf 1243 1243 (.plain, .Ll) .leaf) 1244 1244 (.plain, .Lu) .leaf) 1245 1245 (.plain, .Ll) (.node (.node .leaf 1246 1246 (.plain, .Lu) .leaf) 1247 1247 (.plain, .Ll) .leaf))) 1248 1248 (.plain, .Lu) (.node (.node (.node (.node .leaf 1249 1249 (.plain, .Ll) .leaf) 1250 1250 (.plain, .Lu) .leaf) 1251 1251 (.plain, .Ll) (.node (.node .leaf 1252 1252 (.plain, .Lu) .leaf) 1253 1253 (.plain, .Ll) .leaf)) 1254 1254 (.plain, .Lu) (.node (.node (.node .leaf 1255 1255 (.plain, .Ll) .leaf) 1256 1256 (.plain, .Lu) .leaf) 1257 1257 (.plain, .Ll) (.node (.node .leaf 1258 1258 (.plain, .Lu) .leaf) 1259 1259 (.plain, .Ll) .leaf))))) 1260 1260 (.plain, .Lu) (.node (.node (.node (.node (.node (.node .leaf 1261 1261 (.plain, .Ll) .leaf) 1262 1262 (.plain, .Lu) (.node .leaf 1263 1263 (.plain, .Ll) .leaf)) 1264 1264 (.plain, .Lu) (.node (.node .leaf 1265 1265 (.plain, .Ll) .leaf) 1266 1266 (.plain, .Lu) .leaf)) 1267 1267 (.plain, .Ll) (.node (.node (.node .leaf 1268 1268 (.plain, .Lu) .leaf) 1269 1269 (.plain, .Ll) .leaf) 1270 1270 (.plain, .Lu) (.node (.node .leaf 1271 1271 (.plain, .Ll) .leaf) 1272 1272 (.plain, .Lu) .leaf))) 1273 1273 (.plain, .Ll) (.node (.node (.node (.node .leaf 1274 1274 (.plain, .Lu) .leaf) 1275 1275 (.plain, .Ll) .leaf) 1276 1276 (.plain, .Lu) (.node (.node .leaf 1277 1277 (.plain, .Ll) .leaf) 1278 1278 (.plain, .Lu) .leaf)) 1279 1279 (.plain, .Ll) (.node (.node (.node .leaf 1280 1280 (.plain, .Lu) .leaf) 1281 1281 (.plain, .Ll) .leaf) 1282 1282 (.plain, .Lu) (.node (.node .leaf 1283 1283 (.plain, .Ll) .leaf) 1284 1284 (.plain, .Lu) .leaf)))) 1285 1285 (.plain, .Ll) (.node (.node (.node (.node (.node .leaf 1286 1286 (.plain, .Lu) .leaf) 1287 1287 (.plain, .Ll) (.node .leaf 1288 1288 (.plain, .Lu) .leaf)) 1289 1289 (.plain, .Ll) (.node (.node .leaf 1290 1290 (.plain, .Lu) .leaf) 1291 1291 (.plain, .Ll) .leaf)) 1292 1292 (.plain, .Lu) (.node (.node (.node .leaf 1293 1293 (.plain, .Ll) .leaf) 1294 1294 (.plain, .Lu) .leaf) 1295 1295 (.plain, .Ll) (.node (.node .leaf 1296 1296 (.plain, .Lu) .leaf) 1297 1297 (.plain, .Ll) .leaf))) 1298 1298 (.plain, .Lu) (.node (.node (.node (.node .leaf 1299 1299 (.plain, .Ll) .leaf) 1300 1300 (.plain, .Lu) .leaf) 1301 1301 (.plain, .Ll) (.node (.node .leaf 1302 1302 (.plain, .Lu) .leaf) 1303 1303 (.plain, .Ll) .leaf)) 1304 1304 (.plain, .Lu) (.node (.node (.node .leaf 1305 1305 (.plain, .Ll) .leaf) 1306 1306 (.plain, .Lu) .leaf) 1307 1307 (.plain, .Ll) (.node (.node .leaf 1308 1308 (.plain, .Lu) .leaf) 1309 1309 (.plain, .Ll) .leaf))))))

def categoryTable6 : RTree (Kind × Cat) := (.node (.node (.node (.node (.node (.node (.node .leaf 1311 1311 (.plain, .Ll) .leaf) 1312 1312 (.plain, .Lu) (.node .leaf 1313 1313 (.plain, .Ll) .leaf)) 1314 1314 (.plain, .Lu) (.node (.node .leaf 1315 1315 (.plain, .Ll) .leaf) 1316 1316 (.plain, .Lu) .leaf)) 1317 1317 (.plain, .Ll) (.node (.node (.node .leaf 1318 1318 (.plain, .Lu) .leaf) 1319 1319 (.plain, .Ll) .leaf) 1320 1320 (.plain, .Lu) (.node (.node .leaf 1321 1321 (.plain, .Ll) .leaf) 1322 1322 (.plain, .Lu) .leaf))) 1323 1323 (.plain, .Ll) (.node (.node (.node (.node .leaf 1324 1324 (.plain, .Lu) .leaf) 1325 1325 (.plain, .Ll) (.node .leaf 1326 1326 (.plain, .Lu) .leaf)) 1327 1327 (.plain, .Ll) (.node (.node .leaf 1329 1366 (.plain, .Lu) .leaf) 1369 1369 (.plain, .Lm) .leaf)) 1370 1375 (.plain, .Po) (.node (.node (.node .leaf 1376 1416 (.plain, .Ll) .leaf) 1417 1417 (.plain, .Po) .leaf) 1418 1418 (.plain, .Pd) (.node (.node .leaf 1421 1422 (.plain, .So) .leaf) 1423 1423 (.plain, .Sc) .leaf)))) 1425 1469 (.plain, .Mn) (.node (.node (.node (.node (.node .leaf 1470 1470 (.plain, .Pd) .leaf) 1471 1471 (.plain, .Mn) (.node .leaf 1472 1472 (.plain, .Po) .leaf)) 1473 1474 (.plain, .Mn) (.node (.node .leaf 1475 1475 (.plain, .Po) .leaf) 1476 1477 (.plain, .Mn) .leaf)) 1478 1478 (.plain, .Po) (.node (.node (.node .leaf 1479 1479 (.plain, .Mn) .leaf) 1488 1514 (.plain, .Lo) .leaf) 1519 1522 (.plain, .Lo) (.node (.node .leaf 1523 1524 (.plain, .Po) .leaf) 1536 1541 (.plain, .Cf) .leaf))) 1542 1544 (.plain, .Sm) (.node (.node (.node (.node .leaf 1545 1546 (.plain, .Po) .leaf) 1547 1547 (.plain, .Sc) .leaf) 1548 1549 (.plain, .Po) (.node (.node .leaf 1550 1551 (.plain, .So) .leaf) 1552 1562 (.plain, .Mn) .leaf)) 1563 1563 (.plain, .Po) (.node (.node (.node .leaf 1564 1564 (.plain, .Cf) .leaf) 1566 1567 (.plain, .Po) .leaf) 1568 1599 (.plain, .Lo) (.node (.node .leaf 1600 1600 (.plain, .Lm) .leaf) 1601 1610 (.plain, .Lo) .leaf))))) 1611 1631 (.plain, .Mn) (.node (.node (.node (.node (.node (.node .leaf 1632 1641 (.plain, .Nd) .leaf) 1642 1645 (.plain, .Po) (.node .leaf 1646 1647 (.plain, .Lo) .leaf)) 1648 1648 (.plain, .Mn) (.node (.node .leaf 1649 1747 (.plain, .Lo) .leaf) 1748 1748 (.plain, .Po) .leaf)) 1749 1749 (.plain, .Lo) (.node (.node (.node .leaf 1750 1756 (.plain, .Mn) .leaf) 1757 1757 (.plain, .Cf) .leaf) 1758 1758 (.plain, .So) (.node (.node .leaf 1759 1764 (.plain, .Mn) .leaf) 1765 1766 (.plain, .Lm) .leaf))) 1767 1768 (.plain, .Mn) (.node (.node (.node (.node .leaf 1769 1769 (.plain, .So) .leaf) 1770 1773 (.plain, .Mn) .leaf) 1774 1775 (.plain, .Lo) (.node (.node .leaf 1776 1785 (.plain, .Nd) .leaf) 1786 1788 (.plain, .Lo) .leaf)) 1789 1790 (.plain, .So) (.node (.node (.node .leaf 1791 1791 (.plain, .Lo) .leaf) 1792 1805 (.plain, .Po) .leaf) 1807 1807 (.plain, .Cf) (.node (.node .leaf 1808 1808 (.plain, .Lo) .leaf) 1809 1809 (.plain, .Mn) .leaf)))) 1810 1839 (.plain, .Lo) (.node (.node (.node (.node (.node .leaf 1840 1866 (.plain, .Mn) .leaf) 1869 1957 (.plain, .Lo) (.node .leaf 1958 1968 (.plain, .Mn) .leaf)) 1969 1969 (.plain, .Lo) (.node (.node .leaf 1984 1993 (.plain, .Nd) .leaf) 1994 2026 (.plain, .Lo) .leaf)) 2027 2035 (.plain, .Mn) (.node (.node (.node .leaf 2036 2037 (.plain, .Lm) .leaf) 2038 2038 (.plain, .So) .leaf) 2039 2041 (.plain, .Po) (.node (.node .leaf 2042 2042 (.plain, .Lm) .leaf) 2045 2045 (.plain, .Mn) .leaf))) 2046 2047 (.plain, .Sc) (.node (.node (.node (.node .leaf 2048 2069 (.plain, .Lo) .leaf) 2070 2073 (.plain, .Mn) .leaf) 2074 2074 (.plain, .Lm) (.node (.node .leaf 2075 2083 (.plain, .Mn) .leaf) 2084 2084 (.plain, .Lm) .leaf)) 2085 2087 (.plain, .Mn) (.node (.node (.node .leaf 2088 2088 (.plain, .Lm) .leaf) 2089 2093 (.plain, .Mn) .leaf) 2096 2110 (.plain, .Po) (.node (.node .leaf 2112 2136 (.plain, .Lo) .leaf) 2137 2139 (.plain, .Mn) .leaf))))))

def categoryTable7 : RTree (Kind × Cat) := (.node (.node (.node (.node (.node (.node (.node .leaf 2144 2154 (.plain, .Lo) .leaf) 2208 2228 (.plain, .Lo) (.node .leaf 2230 2247 (.plain, .Lo) .leaf)) 2259 2273 (.plain, .Mn) (.node (.node .leaf 2274 2274 (.plain, .Cf) .leaf) 2275 2306 (.plain, .Mn) .leaf)) 2307 2307 (.plain, .Mc) (.node (.node (.node .leaf 2308 2361 (.plain, .Lo) .leaf) 2362 2362 (.plain, .Mn) .leaf) 2363 2363 (.plain, .Mc) (.node (.node .leaf 2364 2364 (.plain, .Mn) .leaf) 2365 2365 (.plain, .Lo) .leaf))) 2366 2368 (.plain, .Mc) (.node (.node (.node (.node .leaf 2369 2376 (.plain, .Mn) .leaf) 2377 2380 (.plain, .Mc) .leaf) 2381 2381 (.plain, .Mn) (.node (.node .leaf 2382 2383 (.plain, .Mc) .leaf) 2384 2384 (.plain, .Lo) .leaf)) 2385 2391 (.plain, .Mn) (.node (.node (.node .leaf 2392 2401 (.plain, .Lo) .leaf) 2402 2403 (.plain, .Mn) .leaf) 2404 2405 (.plain, .Po) (.node (.node .leaf 2406 2415 (.plain, .Nd) .leaf) 2416 2416 (.plain, .Po) .leaf)))) 2417 2417 (.plain, .Lm) (.node (.node (.node (.node (.node .leaf 2418 2432 (.plain, .Lo) .leaf) 2433 2433 (.plain, .Mn) (.node .leaf 2434 2435 (.plain, .Mc) .leaf)) 2437 2444 (.plain, .Lo) (.node (.node .leaf 2447 2448 (.plain, .Lo) .leaf) 2451 2472 (.plain, .Lo) .leaf)) 2474 2480 (.plain, .Lo) (.node (.node (.node .leaf 2482 2482 (.plain, .Lo) .leaf) 2486 2489 (.plain, .Lo) .leaf) 2492 2492 (.plain, .Mn) (.node (.node .leaf 2493 2493 (.plain, .Lo) .leaf) 2494 2496 (.plain, .Mc) .leaf))) 2497 2500 (.plain, .Mn) (.node (.node (.node (.node .leaf 2503 2504 (.plain, .Mc) .leaf) 2507 2508 (.plain, .Mc) .leaf) 2509 2509 (.plain, .Mn) (.node (.node .leaf 2510 2510 (.plain, .Lo) .leaf) 2519 2519 (.plain, .Mc) .leaf)) 2524 2525 (.plain, .Lo) (.node (.node (.node .leaf 2527 2529 (.plain, .Lo) .leaf) 2530 2531 (.plain, .Mn) .leaf) 2534 2543 (.plain, .Nd) (.node (.node .leaf 2544 2545 (.plain, .Lo) .leaf) 2546 2547 (.plain, .Sc) .leaf))))) 2548 2553 (.plain, .No) (.node (.node (.node (.node (.node (.node .leaf 2554 2554 (.plain, .So) .leaf) 2555 2555 (.plain, .Sc) (.node .leaf 2556 2556 (.plain, .Lo) .leaf)) 2557 2557 (.plain, .Po) (.node (.node .leaf 2558 2558 (.plain, .Mn) .leaf) 2561 2562 (.plain, .Mn) .leaf)) 2563 2563 (.plain, .Mc) (.node (.node (.node .leaf 2565 2570 (.plain, .Lo) .leaf) 2575 2576 (.plain, .Lo) .leaf) 2579 2600 (.plain, .Lo) (.node (.node .leaf 2602 2608 (.plain, .Lo) .leaf) 2610 2611 (.plain, .Lo) .leaf))) 2613 2614 (.plain, .Lo) (.node (.node (.node (.node .leaf 2616 2617 (.plain, .Lo) .leaf) 2620 2620 (.plain, .Mn) .leaf) 2622 2624 (.plain, .Mc) (.node (.node .leaf 2625 2626 (.plain, .Mn) .leaf) 2631 2632 (.plain, .Mn) .leaf)) 2635 2637 (.plain, .Mn) (.node (.node (.node .leaf 2641 2641 (.plain, .Mn) .leaf) 2649 2652 (.plain, .Lo) .leaf) 2654 2654 (.plain, .Lo) (.node (.node .leaf 2662 2671 (.plain, .Nd) .leaf) 2672 2673 (.plain, .Mn) .leaf)))) 2674 2676 (.plain, .Lo) (.node (.node (.node (.node (.node .leaf 2677 2677 (.plain, .Mn) .leaf) 2678 2678 (.plain, .Po) (.node .leaf 2689 2690 (.plain, .Mn) .leaf)) 2691 2691 (.plain, .Mc) (.node (.node .leaf 2693 2701 (.plain, .Lo) .leaf) 2703 2705 (.plain, .Lo) .leaf)) 2707 2728 (.plain, .Lo) (.node (.node (.node .leaf 2730 2736 (.plain, .Lo) .leaf) 2738 2739 (.plain, .Lo) .leaf) 2741 2745 (.plain, .Lo) (.node (.node .leaf 2748 2748 (.plain, .Mn) .leaf) 2749 2749 (.plain, .Lo) .leaf))) 2750 2752 (.plain, .Mc) (.node (.node (.node (.node .leaf 2753 2757 (.plain, .Mn) .leaf) 2759 2760 (.plain, .Mn) .leaf) 2761 2761 (.plain, .Mc) (.node (.node .leaf 2763 2764 (.plain, .Mc) .leaf) 2765 2765 (.plain, .Mn) .leaf)) 2768 2768 (.plain, .Lo) (.node (.node (.node .leaf 2784 2785 (.plain, .Lo) .leaf) 2786 2787 (.plain, .Mn) .leaf) 2790 2799 (.plain, .Nd) (.node (.node .leaf 2800 2800 (.plain, .Po) .leaf) 2801 2801 (.plain, .Sc) .leaf))))))

def categoryTable8 : RTree (Kind × Cat) := (.node (.node (.node (.node (.node (.node (.node .leaf 2810 2815 (.plain, .Mn) .leaf) 2817 2817 (.plain, .Mn) (.node .leaf 2818 2819 (.plain, .Mc) .leaf)) 2821 2828 (.plain, .Lo) (.node (.node .leaf 2831 2832 (.plain, .Lo) .leaf) 2835 2856 (.plain, .Lo) .leaf)) 2858 2864 (.plain, .Lo) (.node (.node (.node .leaf 2866 2867 (.plain, .Lo) .leaf) 2869 2873 (.plain, .Lo) .leaf) 2876 2876 (.plain, .Mn) (.node (.node .leaf 2877 2877 (.plain, .Lo) .leaf) 2878 2878 (.plain, .Mc) .leaf))) 2879 2879 (.plain, .Mn) (.node (.node (.node (.node .leaf 2880 2880 (.plain, .Mc) .leaf) 2881 2884 (.plain, .Mn) (.node .leaf 2887 2888 (.plain, .Mc) .leaf)) 2891 2892 (.plain, .Mc) (.node (.node .leaf 2893 2893 (.plain, .Mn) .leaf) 2901 2902 (.plain, .Mn) .leaf)) 2903 2903 (.plain, .Mc) (.node (.node (.node .leaf 2908 2909 (.plain, .Lo) .leaf) 2911 2913 (.plain, .Lo) .leaf) 2914 2915 (.plain, .Mn) (.node (.node .leaf 2918 2927 (.plain, .Nd) .leaf) 2928 2928 (.plain, .So) .leaf)))) 2929 2929 (.plain, .Lo) (.node (.node (.node (.node (.node .leaf 2930 2935 (.plain, .No) .leaf) 2946 2946 (.plain, .Mn) (.node .leaf 2947 2947 (.plain, .Lo) .leaf)) 2949 2954 (.plain, .Lo) (.node (.node .leaf 2958 2960 (.plain, .Lo) .leaf) 2962 2965 (.plain, .Lo) .leaf)) 2969 2970 (.plain, .Lo) (.node (.node (.node .leaf 2972 2972 (.plain, .Lo) .leaf) 2974 2975 (.plain, .Lo) .leaf) 2979 2980 (.plain, .Lo) (.node (.node .leaf 2984 2986 (.plain, .Lo) .leaf) 2990 3001 (.plain, .Lo) .leaf))) 3006 3007 (.plain, .Mc) (.node (.node (.node (.node .leaf 3008 3008 (.plain, .Mn) .leaf) 3009 3010 (.plain, .Mc) .leaf) 3014 3016 (.plain, .Mc) (.node (.node .leaf 3018 3020 (.plain, .Mc) .leaf) 3021 3021 (.plain, .Mn) .leaf)) 3024 3024 (.plain, .Lo) (.node (.node (.node .leaf 3031 3031 (.plain, .Mc) .leaf) 3046 3055 (.plain, .Nd) .leaf) 3056 3058 (.plain, .No) (.node (.node .leaf 3059 3064 (.plain, .So) .leaf) 3065 3065 (.plain, .Sc) .leaf))))) 3066 3066 (.plain, .So) (.node (.node (.node (.node (.node (.node .leaf 3072 3072 (.plain, .Mn) .leaf) 3073 3075 (.plain, .Mc) (.node .leaf 3076 3076 (.plain, .Mn) .leaf)) 3077 3084 (.plain, .Lo) (.node (.node .leaf 3086 3088 (.plain, .Lo) .leaf) 3090 3112 (.plain, .Lo) .leaf)) 3114 3129 (.plain, .Lo) (.node (.node (.node .leaf 3133 3133 (.plain, .Lo) .leaf) 3134 3136 (.plain, .Mn) .leaf) 3137 3140 (.plain, .Mc) (.node (.node .leaf 3142 3144 (.plain, .Mn) .leaf) 3146 3149 (.plain, .Mn) .leaf))) 3157 3158 (.plain, .Mn) (.node (.node (.node (.node .leaf 3160 3162 (.plain, .Lo) .leaf) 3168 3169 (.plain, .Lo) .leaf) 3170 3171 (.plain, .Mn) (.node (.node .leaf 3174 3183 (.plain, .Nd) .leaf) 3191 3191 (.plain, .Po) .leaf)) 3192 3198 (.plain, .No) (.node (.node (.node .leaf 3199 3199 (.plain, .So) .leaf) 3200 3200 (.plain, .Lo) .leaf) 3201 3201 (.plain, .Mn) (.node (.node .leaf 3202 3203 (.plain, .Mc) .leaf) 3204 3204 (.plain, .Po) .leaf)))) 3205 3212 (.plain, .Lo) (.node (.node (.node (.node (.node .leaf 3214 3216 (.plain, .Lo) .leaf) 3218 3240 (.plain, .Lo) (.node .leaf 3242 3251 (.plain, .Lo) .leaf)) 3253 3257 (.plain, .Lo) (.node (.node .leaf 3260 3260 (.plain, .Mn) .leaf) 3261 3261 (.plain, .Lo) .leaf)) 3262 3262 (.plain, .Mc) (.node (.node (.node .leaf 3263 3263 (.plain, .Mn) .leaf) 3264 3268 (.plain, .Mc) .leaf) 3270 3270 (.plain, .Mn) (.node (.node .leaf 3271 3272 (.plain, .Mc) .leaf) 3274 3275 (.plain, .Mc) .leaf))) 3276 3277 (.plain, .Mn) (.node (.node (.node (.node .leaf 3285 3286 (.plain, .Mc) .leaf) 3294 3294 (.plain, .Lo) .leaf) 3296 3297 (.plain, .Lo) (.node (.node .leaf 3298 3299 (.plain, .Mn) .leaf) 3302 3311 (.plain, .Nd) .leaf)) 3313 3314 (.plain, .Lo) (.node (.node (.node .leaf 3328 3329 (.plain, .Mn) .leaf) 3330 3331 (.plain, .Mc) .leaf) 3332 3340 (.plain, .Lo) (.node (.node .leaf 3342 3344 (.plain, .Lo) .leaf) 3346 3386 (.plain, .Lo) .leaf))))))

def categoryTable9 : RTree (Kind × Cat) := (.node (.node (.node (.node (.node (.node (.node .leaf 3389 3389 (.plain, .Lo) .leaf) 3390 3392 (.plain, .Mc) (.node .leaf 3393 3396 (.plain, .Mn) .leaf)) 3398 3400 (.plain, .Mc) (.node (.node .leaf 3402 3404 (.plain, .Mc) .leaf) 3405 3405 (.plain, .Mn) .leaf)) 3406 3406 (.plain, .Lo) (.node (.node (.node .leaf 3407 3407 (.plain, .So) .leaf) 3412 3414 (.plain, .Lo) .leaf) 3415 3415 (.plain, .Mc) (.node (.node .leaf 3416 3422 (.plain, .No) .leaf) 3423 3425 (.plain, .Lo) .leaf))) 3426 3427 (.plain, .Mn) (.node (.node (.node (.node .leaf 3430 3439 (.plain, .Nd) .leaf) 3440 3448 (.plain, .No) (.node .leaf 3449 3449 (.plain, .So) .leaf)) 3450 3455 (.plain, .Lo) (.node (.node .leaf 3457 3457 (.plain, .Mn) .leaf) 3458 3459 (.plain, .Mc) .leaf)) 3461 3478 (.plain, .Lo) (.node (.node (.node .leaf 3482 3505 (.plain, .Lo) .leaf) 3507 3515 (.plain, .Lo) .leaf) 3517 3517 (.plain, .Lo) (.node (.node .leaf 3520 3526 (.plain, .Lo) .leaf) 3530 3530 (.plain, .Mn) .leaf)))) 3535 3537 (.plain, .Mc) (.node (.node (.node (.node (.node .leaf 3538 3540 (.plain, .Mn) .leaf) 3542 3542 (.plain, .Mn) (.node .leaf 3544 3551 (.plain, .Mc) .leaf)) 3558 3567 (.plain, .Nd) (.node (.node .leaf 3570 3571 (.plain, .Mc) .leaf) 3572 3572 (.plain, .Po) .leaf)) 3585 3632 (.plain, .Lo) (.node (.node (.node .leaf 3633 3633 (.plain, .Mn) .leaf) 3634 3635 (.plain, .Lo) .leaf) 3636 3642 (.plain, .Mn) (.node (.node .leaf 3647 3647 (.plain, .Sc) .leaf) 3648 3653 (.plain, .Lo) .leaf))) 3654 3654 (.plain, .Lm) (.node (.node (.node (.node .leaf 3655 3662 (.plain, .Mn) .leaf) 3663 3663 (.plain, .Po) .leaf) 3664 3673 (.plain, .Nd) (.node (.node .leaf 3674 3675 (.plain, .Po) .leaf) 3713 3714 (.plain, .Lo) .leaf)) 3716 3716 (.plain, .Lo) (.node (.node (.node .leaf 3718 3722 (.plain, .Lo) .leaf) 3724 3747 (.plain, .Lo) .leaf) 3749 3749 (.plain, .Lo) (.node (.node .leaf 3751 3760 (.plain, .Lo) .leaf) 3761 3761 (.plain, .Mn) .leaf))))) 3762 3763 (.plain, .Lo) (.node (.node (.node (.node (.node (.node .leaf 3764 3772 (.plain, .Mn) .leaf) 3773 3773 (.plain, .Lo) (.node .leaf 3776 3780 (.plain, .Lo) .leaf)) 3782 3782 (.plain, .Lm) (.node (.node .leaf 3784 3789 (.plain, .Mn) .leaf) 3792 3801 (.plain, .Nd) .leaf)) 3804 3807 (.plain, .Lo) (.node (.node (.node .leaf 3840 3840 (.plain, .Lo) .leaf) 3841 3843 (.plain, .So) .leaf) 3844 3858 (.plain, .Po) (.node (.node .leaf 3859 3859 (.plain, .So) .leaf) 3860 3860 (.plain, .Po) .leaf))) 3861 3863 (.plain, .So) (.node (.node (.node (.node .leaf 3864 3865 (.plain, .Mn) .leaf) 3866 3871 (.plain, .So) .leaf) 3872 3881 (.plain, .Nd) (.node (.node .leaf 3882 3891 (.plain, .No) .leaf) 3892 3892 (.plain, .So) .leaf)) 3893 3893 (.plain, .Mn) (.node (.node (.node .leaf 3894 3894 (.plain, .So) .leaf) 3895 3895 (.plain, .Mn) .leaf) 3896 3896 (.plain, .So) (.node (.node .leaf 3897 3897 (.plain, .Mn) .leaf) 3898 3898 (.plain, .Ps) .leaf)))) 3899 3899 (.plain, .Pe) (.node (.node (.node (.node (.node .leaf 3900 3900 (.plain, .Ps) .leaf) 3901 3901 (.plain, .Pe) (.node .leaf 3902 3903 (.plain, .Mc) .leaf)) 3904 3911 (.plain, .Lo) (.node (.node .leaf 3913 3948 (.plain, .Lo) .leaf) 3953 3966 (.plain, .Mn) .leaf)) 3967 3967 (.plain, .Mc) (.node (.node (.node .leaf 3968 3972 (.plain, .Mn) .leaf) 3973 3973 (.plain, .Po) .leaf) 3974 3975 (.plain, .Mn) (.node (.node .leaf 3976 3980 (.plain, .Lo) .leaf) 3981 3991 (.plain, .Mn) .leaf))) 3993 4028 (.plain, .Mn) (.node (.node (.node (.node .leaf 4030 4037 (.plain, .So) .leaf) 4038 4038 (.plain, .Mn) .leaf) 4039 4044 (.plain, .So) (.node (.node .leaf 4046 4047 (.plain, .So) .leaf) 4048 4052 (.plain, .Po) .leaf)) 4053 4056 (.plain, .So) (.node (.node (.node .leaf 4057 4058 (.plain, .Po) .leaf) 4096 4138 (.plain, .Lo) .leaf) 4139 4140 (.plain, .Mc) (.node (.node .leaf 4141 4144 (.plain, .Mn) .leaf) 4145 4145 (.plain, .Mc) .leaf))))))

def categoryTable10 : RTree (Kind × Cat) := (.node (.node (.node (.node (.node (.node (.node .leaf 4152 4152 (.plain, .Mc) .leaf) 4153 4154 (.plain, .Mn) (.node .leaf 4155 4156 (.plain, .Mc) .leaf)) 4157 4158 (.plain, .Mn) (.node (.node .leaf 4159 4159 (.plain, .Lo) .leaf) 4160 4169 (.plain, .Nd) .leaf)) 4170 4175 (.plain, .Po) (.node (.node (.node .leaf 4176 4181 (.plain, .Lo) .leaf) 4182 4183 (.plain, .Mc) .leaf) 4184 4185 (.plain, .Mn) (.node (.node .leaf 4186 4189 (.plain, .Lo) .leaf) 4190 4192 (.plain, .Mn) .leaf))) 4193 4193 (.plain, .Lo) (.node (.node (.node (.node .leaf 4194 4196 (.plain, .Mc) .leaf) 4197 4198 (.plain, .Lo) (.node .leaf 4199 4205 (.plain, .Mc) .leaf)) 4206 4208 (.plain, .Lo) (.node (.node .leaf 4209 4212 (.plain, .Mn) .leaf) 4213 4225 (.plain, .Lo) .leaf)) 4226 4226 (.plain, .Mn) (.node (.node (.node .leaf 4227 4228 (.plain, .Mc) .leaf) 4229 4230 (.plain, .Mn) .leaf) 4231 4236 (.plain, .Mc) (.node (.node .leaf 4237 4237 (.plain, .Mn) .leaf) 4238 4238 (.plain, .Lo) .leaf)))) 4239 4239 (.plain, .Mc) (.node (.node (.node (.node (.node .leaf 4240 4249 (.plain, .Nd) .leaf) 4250 4252 (.plain, .Mc) (.node .leaf 4253 4253 (.plain, .Mn) .leaf)) 4254 4255 (.plain, .So) (.node (.node .leaf 4256 4293 (.plain, .Lu) .leaf) 4295 4295 (.plain, .Lu) .leaf)) 4301 4301 (.plain, .Lu) (.node (.node (.node .leaf 4304 4346 (.plain, .Ll) .leaf) 4347 4347 (.plain, .Po) .leaf) 4348 4348 (.plain, .Lm) (.node (.node .leaf 4349 4351 (.plain, .Ll) .leaf) 4352 4680 (.plain, .Lo) .leaf))) 4682 4685 (.plain, .Lo) (.node (.node (.node (.node .leaf 4688 4694 (.plain, .Lo) .leaf) 4696 4696 (.plain, .Lo) .leaf) 4698 4701 (.plain, .Lo) (.node (.node .leaf 4704 4744 (.plain, .Lo) .leaf) 4746 4749 (.plain, .Lo) .leaf)) 4752 4784 (.plain, .Lo) (.node (.node (.node .leaf 4786 4789 (.plain, .Lo) .leaf) 4792 4798 (.plain, .Lo) .leaf) 4800 4800 (.plain, .Lo) (.node (.node .leaf 4802 4805 (.plain, .Lo) .leaf) 4808 4822 (.plain, .Lo) .leaf))))) 4824 4880 (.plain, .Lo) (.node (.node (.node (.node (.node (.node .leaf 4882 4885 (.plain, .Lo) .leaf) 4888 4954 (.plain, .Lo) (.node .leaf 4957 4959 (.plain, .Mn) .leaf)) 4960 4968 (.plain, .Po) (.node (.node .leaf 4969 4988 (.plain, .No) .leaf) 4992 5007 (.plain, .Lo) .leaf)) 5008 5017 (.plain, .So) (.node (.node (.node .leaf 5024 5109 (.plain, .Lu) .leaf) 5112 5117 (.plain, .Ll) .leaf) 5120 5120 (.plain, .Pd) (.node (.node .leaf 5121 5740 (.plain, .Lo) .leaf) 5741 5741 (.plain, .So) .leaf))) 5742 5742 (.plain, .Po) (.node (.node (.node (.node .leaf 5743 5759 (.plain, .Lo) .leaf) 5760 5760 (.plain, .Zs) .leaf) 5761 5786 (.plain, .Lo) (.node (.node .leaf 5787 5787 (.plain, .Ps) .leaf) 5788 5788 (.plain, .Pe) .leaf)) 5792 5866 (.plain, .Lo) (.node (.node (.node .leaf 5867 5869 (.plain, .Po) .leaf) 5870 5872 (.plain, .Nl) .leaf) 5873 5880 (.plain, .Lo) (.node (.node .leaf 5888 5900 (.plain, .Lo) .leaf) 5902 5905 (.plain, .Lo) .leaf)))) 5906 5908 (.plain, .Mn) (.node (.node (.node (.node (.node .leaf 5920 5937 (.plain, .Lo) .leaf) 5938 5940 (.plain, .Mn) (.node .leaf 5941 5942 (.plain, .Po) .leaf)) 5952 5969 (.plain, .Lo) (.node (.node .leaf 5970 5971 (.plain, .Mn) .leaf) 5984 5996 (.plain, .Lo) .leaf)) 5998 6000 (.plain, .Lo) (.node (.node (.node .leaf 6002 6003 (.plain, .Mn) .leaf) 6016 6067 (.plain, .Lo) .leaf) 6068 6069 (.plain, .Mn) (.node (.node .leaf 6070 6070 (.plain, .Mc) .leaf) 6071 6077 (.plain, .Mn) .leaf))) 6078 6085 (.plain, .Mc) (.node (.node (.node (.node .leaf 6086 6086 (.plain, .Mn) .leaf) 6087 6088 (.plain, .Mc) .leaf) 6089 6099 (.plain, .Mn) (.node (.node .leaf 6100 6102 (.plain, .Po) .leaf) 6103 6103 (.plain, .Lm) .leaf)) 6104 6106 (.plain, .Po) (.node (.node (.node .leaf 6107 6107 (.plain, .Sc) .leaf) 6108 6108 (.plain, .Lo) .leaf) 6109 6109 (.plain, .Mn) (.node (.node .leaf 6112 6121 (.plain, .Nd) .leaf) 6128 6137 (.plain, .No) .leaf))))))

def categoryTable11 : RTree (Kind × Cat) := (.node (.node (.node (.node (.node (.node (.node .leaf 6150 6150 (.plain, .Pd) .leaf) 6151 6154 (.plain, .Po) (.node .leaf 6155 6157 (.plain, .Mn) .leaf)) 6158 6158 (.plain, .Cf) (.node (.node .leaf 6160 6169 (.plain, .Nd) .leaf) 6176 6210 (.plain, .Lo) .leaf)) 6211 6211 (.plain, .Lm) (.node (.node (.node .leaf 6212 6264 (.plain, .Lo) .leaf) 6272 6276 (.plain, .Lo) .leaf) 6277 6278 (.plain, .Mn) (.node (.node .leaf 6279 6312 (.plain, .Lo) .leaf) 6313 6313 (.plain, .Mn) .leaf))) 6314 6314 (.plain, .Lo) (.node (.node (.node (.node .leaf 6320 6389 (.plain, .Lo) .leaf) 6400 6430 (.plain, .Lo) .leaf) 6432 6434 (.plain, .Mn) (.node (.node .leaf 6435 6438 (.plain, .Mc) .leaf) 6439 6440 (.plain, .Mn) .leaf)) 6441 6443 (.plain, .Mc) (.node (.node (.node .leaf 6448 6449 (.plain, .Mc) .leaf) 6450 6450 (.plain, .Mn) .leaf) 6451 6456 (.plain, .Mc) (.node (.node .leaf 6457 6459 (.plain, .Mn) .leaf) 6464 6464 (.plain, .So) .leaf)))) 6468 6469 (.plain, .Po) (.node (.node (.node (.node (.node .leaf 6470 6479 (.plain, .Nd) .leaf) 6480 6509 (.plain, .Lo) (.node .leaf 6512 6516 (.plain, .Lo) .leaf)) 6528 6571 (.plain, .Lo) (.node (.node .leaf 6576 6601 (.plain, .Lo) .leaf) 6608 6617 (.plain, .Nd) .leaf)) 6618 6618 (.plain, .No) (.node (.node (.node .leaf 6622 6655 (.plain, .So) .leaf) 6656 6678 (.plain, .Lo) .leaf) 6679 6680 (.plain, .Mn) (.node (.node .leaf 6681 6682 (.plain, .Mc) .leaf) 6683 6683 (.plain, .Mn) .leaf))) 6686 6687 (.plain, .Po) (.node (.node (.node (.node .leaf 6688 6740 (.plain, .Lo) .leaf) 6741 6741 (.plain, .Mc) .leaf) 6742 6742 (.plain, .Mn) (.node (.node .leaf 6743 6743 (.plain, .Mc) .leaf) 6744 6750 (.plain, .Mn) .leaf)) 6752 6752 (.plain, .Mn) (.node (.node (.node .leaf 6753 6753 (.plain, .Mc) .leaf) 6754 6754 (.plain, .Mn) .leaf) 6755 6756 (.plain, .Mc) (.node (.node .leaf 6757 6764 (.plain, .Mn) .leaf) 6765 6770 (.plain, .Mc) .leaf))))) 6771 6780 (.plain, .Mn) (.node (.node (.node (.node (.node (.node .leaf 6783 6783 (.plain, .Mn) .leaf) 6784 6793 (.plain, .Nd) (.node .leaf 6800 6809 (.plain, .Nd) .leaf)) 6816 6822 (.plain, .Po) (.node (.node .leaf 6823 6823 (.plain, .Lm) .leaf) 6824 6829 (.plain, .Po) .leaf)) 6832 6845 (.plain, .Mn) (.node (.node (.node .leaf 6846 6846 (.plain, .Me) .leaf) 6847 6848 (.plain, .Mn) .leaf) 6912 6915 (.plain, .Mn) (.node (.node .leaf 6916 6916 (.plain, .Mc) .leaf) 6917 6963 (.plain, .Lo) .leaf))) 6964 6964 (.plain, .Mn) (.node (.node (.node (.node .leaf 6965 6965 (.plain, .Mc) .leaf) 6966 6970 (.plain, .Mn) .leaf) 6971 6971 (.plain, .Mc) (.node (.node .leaf 6972 6972 (.plain, .Mn) .leaf) 6973 6977 (.plain, .Mc) .leaf)) 6978 6978 (.plain, .Mn) (.node (.node (.node .leaf 6979 6980 (.plain, .Mc) .leaf) 6981 6987 (.plain, .Lo) .leaf) 6992 7001 (.plain, .Nd) (.node (.node .leaf 7002 7008 (.plain, .Po) .leaf) 7009 7018 (.plain, .So) .leaf)))) 7019 7027 (.plain, .Mn) (.node (.node (.node (.node (.node .leaf 7028 7036 (.plain, .So) .leaf) 7040 7041 (.plain, .Mn) (.node .leaf 7042 7042 (.plain, .Mc) .leaf)) 7043 7072 (.plain, .Lo) (.node (.node .leaf 7073 7073 (.plain, .Mc) .leaf) 7074 7077 (.plain, .Mn) .leaf)) 7078 7079 (.plain, .Mc) (.node (.node (.node .leaf 7080 7081 (.plain, .Mn) .leaf) 7082 7082 (.plain, .Mc) .leaf) 7083 7085 (.plain, .Mn) (.node (.node .leaf 7086 7087 (.plain, .Lo) .leaf) 7088 7097 (.plain, .Nd) .leaf))) 7098 7141 (.plain, .Lo) (.node (.node (.node (.node .leaf 7142 7142 (.plain, .Mn) .leaf) 7143 7143 (.plain, .Mc) .leaf) 7144 7145 (.plain, .Mn) (.node (.node .leaf 7146 7148 (.plain, .Mc) .leaf) 7149 7149 (.plain, .Mn) .leaf)) 7150 7150 (.plain, .Mc) (.node (.node (.node .leaf 7151 7153 (.plain, .Mn) .leaf) 7154 7155 (.plain, .Mc) .leaf) 7164 7167 (.plain, .Po) (.node (.node .leaf 7168 7203 (.plain, .Lo) .leaf) 7204 7211 (.plain, .Mc) .leaf))))))

def categoryTable12 : RTree (Kind × Cat) := (.node (.node (.node (.node (.node (.node (.node .leaf 7220 7221 (.plain, .Mc) .leaf) 7222 7223 (.plain, .Mn) (.node .leaf 7227 7231 (.plain, .Po) .leaf)) 7232 7241 (.plain, .Nd) (.node (.node .leaf 7245 7247 (.plain, .Lo) .leaf) 7248 7257 (.plain, .Nd) .leaf)) 7258 7287 (.plain, .Lo) (.node (.node (.node .leaf 7288 7293 (.plain, .Lm) .leaf) 7294 7295 (.plain, .Po) .leaf) 7296 7304 (.plain, .Ll) (.node (.node .leaf 7312 7354 (.plain, .Lu) .leaf) 7357 7359 (.plain, .Lu) .leaf))) 7360 7367 (.plain, .Po) (.node (.node (.node (.node .leaf 7376 7378 (.plain, .Mn) .leaf) 7379 7379 (.plain, .Po) (.node .leaf 7380 7392 (.plain, .Mn) .leaf)) 7393 7393 (.plain, .Mc) (.node (.node .leaf 7394 7400 (.plain, .Mn) .leaf) 7401 7404 (.plain, .Lo) .leaf)) 7405 7405 (.plain, .Mn) (.node (.node (.node .leaf 7406 7411 (.plain, .Lo) .leaf) 7412 7412 (.plain, .Mn) .leaf) 7413 7414 (.plain, .Lo) (.node (.node .leaf 7415 7415 (.plain, .Mc) .leaf) 7416 7417 (.plain, .Mn) .leaf)))) 7418 7418 (.plain, .Lo) (.node (.node (.node (.node (.node .leaf 7424 7467 (.plain, .Ll) .leaf) 7468 7530 (.plain, .Lm) (.node .leaf 7531 7543 (.plain, .Ll) .leaf)) 7544 7544 (.plain, .Lm) (.node (.node .leaf 7545 7578 (.plain, .Ll) .leaf) 7579 7615 (.plain, .Lm) .leaf)) 7616 7673 (.plain, .Mn) (.node (.node (.node .leaf 7675 7679 (.plain, .Mn) .leaf) 7680 7680 (.plain, .Lu) .leaf) 7681 7681 (.plain, .Ll) (.node (.node .leaf 7682 7682 (.plain, .Lu) .leaf) 7683 7683 (.plain, .Ll) .leaf))) 7684 7684 (.plain, .Lu) (.node (.node (.node (.node .leaf 7685 7685 (.plain, .Ll) .leaf) 7686 7686 (.plain, .Lu) .leaf) 7687 7687 (.plain, .Ll) (.node (.node .leaf 7688 7688 (.plain, .Lu) .leaf) 7689 7689 (.plain, .Ll) .leaf)) 7690 7690 (.plain, .Lu) (.node (.node (.node .leaf 7691 7691 (.plain, .Ll) .leaf) 7692 7692 (.plain, .Lu) .leaf) 7693 7693 (.plain, .Ll) (.node (.node .leaf 7694 7694 (.plain, .Lu) .leaf) 7695 7695 (.plain, .Ll) .leaf))))) 7696 7696 (.plain, .Lu) (.node (.node (.node (.node (.node (.node .leaf 7697 7697 (.plain, .Ll) .leaf) 7698 7698 (.plain, .Lu) (.node .leaf 7699 7699 (.plain, .Ll) .leaf)) 7700 7700 (.plain, .Lu) (.node (.node .leaf 7701 7701 (.plain, .Ll) .leaf) 7702 7702 (.plain, .Lu) .leaf)) 7703 7703 (.plain, .Ll) (.node (.node (.node .leaf 7704 7704 (.plain, .Lu) .leaf) 7705 7705 (.plain, .Ll) .leaf) 7706 7706 (.plain, .Lu) (.node (.node .leaf 7707 7707 (.plain, .Ll) .leaf) 7708 7708 (.plain, .Lu) .leaf))) 7709 7709 (.plain, .Ll) (.node (.node (.node (.node .leaf 7710 7710 (.plain, .Lu) .leaf) 7711 7711 (.plain, .Ll) .leaf) 7712 7712 (.plain, .Lu) (.node (.node .leaf 7713 7713 (.plain, .Ll) .leaf) 7714 7714 (.plain, .Lu) .leaf)) 7715 7715 (.plain, .Ll) (.node (.node (.node .leaf 7716 7716 (.plain, .Lu) .leaf) 7717 7717 (.plain, .Ll) .leaf) 7718 7718 (.plain, .Lu) (.node (.node .leaf 7719 7719 (.plain, .Ll) .leaf) 7720 7720 (.plain, .Lu) .leaf)))) 7721 7721 (.plain, .Ll) (.node (.node (.node (.node (.node .leaf 7722 7722 (.plain, .Lu) .leaf) 7723 7723 (.plain, .Ll) (.node .leaf 7724 7724 (.plain, .Lu) .leaf)) 7725 7725 (.plain, .Ll) (.node (.node .leaf 7726 7726 (.plain, .Lu) .leaf) 7727 7727 (.plain, .Ll) .leaf)) 7728 7728 (.plain, .Lu) (.node (.node (.node .leaf 7729 7729 (.plain, .Ll) .leaf) 7730 7730 (.plain, .Lu) .leaf) 7731 7731 (.plain, .Ll) (.node (.node .leaf 7732 7732 (.plain, .Lu) .leaf) 7733 7733 (.plain, .Ll) .leaf))) 7734 7734 (.plain, .Lu) (.node (.node (.node (.node .leaf 7735 7735 (.plain, .Ll) .leaf) 7736 7736 (.plain, .Lu) .leaf) 7737 7737 (.plain, .Ll) (.node (.node .leaf 7738 7738 (.plain, .Lu) .leaf) 7739 7739 (.plain, .Ll) .leaf)) 7740 7740 (.plain, .Lu) (.node (.node (.node .leaf 7741 7741 (.plain, .Ll) .leaf) 7742 7742 (.plain, .Lu) .leaf) 7743 7743 (.plain, .Ll) (.node (.node .leaf 7744 7744 (.plain, .Lu) .leaf) 7745 7745 (.plain, .Ll) .leaf))))))

def categoryTable13 : RTree (Kind × Cat) := (.node (.node (.node (.node (.node (.node (.node .leaf 7747 7747 (.plain, .Ll) .leaf) 7748 7748 (.plain, .Lu) (.node .leaf 7749 7749 (.plain, .Ll) .leaf)) 7750 7750 (.plain, .Lu) (.node (.node .leaf 7751 7751 (.plain, .Ll) .leaf) 7752 7752 (.plain, .Lu) .leaf)) 7753 7753 (.plain, .Ll) (.node (.node (.node .leaf 7754 7754 (.plain, .Lu) .leaf) 7755 7755 (.plain, .Ll) .leaf) 7756 7756 (.plain, .Lu) (.node (.node .leaf 7757 7757 (.plain, .Ll) .leaf) 7758 7758 (.plain, .Lu) .leaf))) 7759 7759 (.plain, .Ll) (.node (.node (.node (.node .leaf 7760 7760 (.plain, .Lu) .leaf) 7761 7761 (.plain, .Ll) .leaf) 7762 7762 (.plain, .Lu) (.node (.node .leaf 7763 7763 (.plain, .Ll) .leaf) 7764 7764 (.plain, .Lu) .leaf)) 7765 7765 (.plain, .Ll) (.node (.node (.node .leaf 7766 7766 (.plain, .Lu) .leaf) 7767 7767 (.plain, .Ll) .leaf) 7768 7768 (.plain, .Lu) (.node (.node .leaf 7769 7769 (.plain, .Ll) .leaf) 7770 7770 (.plain, .Lu) .leaf)))) 7771 7771 (.plain, .Ll) (.node (.node (.node (.node (.node .leaf 7772 7772 (.plain, .Lu) .leaf) 7773 7773 (.plain, .Ll) (.node .leaf 7774 7774 (.plain, .Lu) .leaf)) 7775 7775 (.plain, .Ll) (.node (.node .leaf 7776 7776 (.plain, .Lu) .leaf) 7777 7777 (.plain, .Ll) .leaf)) 7778 7778 (.plain, .Lu) (.node (.node (.node .leaf 7779 7779 (.plain, .Ll) .leaf) 7780 7780 (.plain, .Lu) .leaf) 7781 7781 (.plain, .Ll) (.node (.node .leaf 7782 7782 (.plain, .Lu) .leaf) 7783 7783 (.plain, .Ll) .leaf))) 7784 7784 (.plain, .Lu) (.node (.node (.node (.node .leaf 7785 7785 (.plain, .Ll) .leaf) 7786 7786 (.plain, .Lu) .leaf) 7787 7787 (.plain, .Ll) (.node (.node .leaf 7788 7788 (.plain, .Lu) .leaf) 7789 7789 (.plain, .Ll) .leaf)) 7790 7790 (.plain, .Lu) (.node (.node (.node .leaf 7791 7791 (.plain, .Ll) .leaf) 7792 7792 (.plain, .Lu) .leaf) 7793 7793 (.plain, .Ll) (.node (.node .leaf 7794 7794 (.plain, .Lu) .leaf) 7795 7795 (.plain, .Ll) .leaf))))) 7796 7796 (.plain, .Lu) (.node (.node (.node (.node (.node (.node .leaf 7797 7797 (.plain, .Ll) .leaf) 7798 7798 (.plain, .Lu) (.node .leaf 7799 7799 (.plain, .Ll) .leaf)) 7800 7800 (.plain, .Lu) (.node (.node .leaf 7801 7801 (.plain, .Ll) .leaf) 7802 7802 (.plain, .Lu) .leaf)) 7803 7803 (.plain, .Ll) (.node (.node (.node .leaf 7804 7804 (.plain, .Lu) .leaf) 7805 7805 (.plain, .Ll) .leaf) 7806 7806 (.plain, .Lu) (.node (.node .leaf 7807 7807 (.plain, .Ll) .leaf) 7808 7808 (.plain, .Lu) .leaf))) 7809 7809 (.plain, .Ll) (.node (.node (.node (.node .leaf 7810 7810 (.plain, .Lu) .leaf) 7811 7811 (.plain, .Ll) .leaf) 7812 7812 (.plain, .Lu) (.node (.node .leaf 7813 7813 (.plain, .Ll) .leaf) 7814 7814 (.plain, .Lu) .leaf)) 7815 7815 (.plain, .Ll) (.node (.node (.node .leaf 7816 7816 (.plain, .Lu) .leaf) 7817 7817 (.plain, .Ll) .leaf) 7818 7818 (.plain, .Lu) (.node (.node .leaf 7819 7819 (.plain, .Ll) .leaf) 7820 7820 (.plain, .Lu) .leaf)))) 7821 7821 (.plain, .Ll) (.node (.node (.node (.node (.node .leaf 7822 7822 (.plain, .Lu) .leaf) 7823 7823 (.plain, .Ll) (.node .leaf 7824 7824 (.plain, .Lu) .leaf)) 7825 7825 (.plain, .Ll) (.node (.node .leaf 7826 7826 (.plain, .Lu) .leaf) 7827 7827 (.plain, .Ll) .leaf)) 7828 7828 (.plain, .Lu) (.node (.node (.node .leaf 7829 7837 (.plain, .Ll) .leaf) 7838 7838 (.plain, .Lu) .leaf) 7839 7839 (.plain, .Ll) (.node (.node .leaf 7840 7840 (.plain, .Lu) .leaf) 7841 7841 (.plain, .Ll) .leaf))) 7842 7842 (.plain, .Lu) (.node (.node (.node (.node .leaf 7843 7843 (.plain, .Ll) .leaf) 7844 7844 (.plain, .Lu) .leaf) 7845 7845 (.plain, .Ll) (.node (.node .leaf 7846 7846 (.plain, .Lu) .leaf) 7847 7847 (.plain, .Ll) .leaf)) 7848 7848 (.plain, .Lu) (.node (.node (.node .leaf 7849 7849 (.plain, .Ll) .leaf) 7850 7850 (.plain, .Lu) .leaf) 7851 7851 (.plain, .Ll) (.node (.node .leaf 7852 7852 (.plain, .Lu) .leaf) 7853 7853 (.plain, .Ll) .leaf))))))

def categoryTable14 : RTree (Kind × Cat) := (.node (.node (.node (.node (.node (.node (.node .leaf 7855 7855 (.plain, .Ll) .leaf) 7856 7856 (.plain, .Lu) (.node .leaf 7857 7857 (.plain, .Ll) .leaf)) 7858 7858 (.plain, .Lu) (.node (.node .leaf 7859 7859 (.plain, .Ll) .leaf) 7860 7860 (.plain, .Lu) .leaf)) 7861 7861 (.plain, .Ll) (.node (.node (.node .leaf 7862 7862 (.plain, .Lu) .leaf) 7863 7863 (.plain, .Ll) .leaf) 7864 7864 (.plain, .Lu) (.node (.node .leaf 7865 7865 (.plain, .Ll) .leaf) 7866 7866 (.plain, .Lu) .leaf))) 7867 7867 (.plain, .Ll) (.node (.node (.node (.node .leaf 7868 7868 (.plain, .Lu) .leaf) 7869 7869 (.plain, .Ll) (.node .leaf 7870 7870 (.plain, .Lu) .leaf)) 7871 7871 (.plain, .Ll) (.node (.node .leaf 7872 7872 (.plain, .Lu) .leaf) 7873 7873 (.plain, .Ll) .leaf)) 7874 7874 (.plain, .Lu) (.node (.node (.node .leaf 7875 7875 (.plain, .Ll) .leaf) 7876 7876 (.plain, .Lu) .leaf) 7877 7877 (.plain, .Ll) (.node (.node .leaf 7878 7878 (.plain, .Lu) .leaf) 7879 7879 (.plain, .Ll) .leaf)))) 7880 7880 (.plain, .Lu) (.node (.node (.node (.node (.node .leaf 7881 7881 (.plain, .Ll) .leaf) 7882 7882 (.plain, .Lu) (.node .leaf 7883 7883 (.plain, .Ll) .leaf)) 7884 7884 (.plain, .Lu) (.node (.node .leaf 7885 7885 (.plain, .Ll) .leaf) 7886 7886 (.plain, .Lu) .leaf)) 7887 7887 (.plain, .Ll) (.node (.node (.node .leaf 7888 7888 (.plain, .Lu) .leaf) 7889 7889 (.plain, .Ll) .leaf) 7890 7890 (.plain, .Lu) (.node (.node .leaf 7891 7891 (.plain, .Ll) .leaf) 7892 7892 (.plain, .Lu) .leaf))) 7893 7893 (.plain, .Ll) (.node (.node (.node (.node .leaf 7894 7894 (.plain, .Lu) .leaf) 7895 7895 (.plain, .Ll) .leaf) 7896 7896 (.plain, .Lu) (.node (.node .leaf 7897 7897 (.plain, .Ll) .leaf) 7898 7898 (.plain, .Lu) .leaf)) 7899 7899 (.plain, .Ll) (.node (.node (.node .leaf 7900 7900 (.plain, .Lu) .leaf) 7901 7901 (.plain, .Ll) .leaf) 7902 7902 (.plain, .Lu) (.node (.node .leaf 7903 7903 (.plain, .Ll) .leaf) 7904 7904 (.plain, .Lu) .leaf))))) 7905 7905 (.plain, .Ll) (.node (.node (.node (.node (.node (.node .leaf 7906 7906 (.plain, .Lu) .leaf) 7907 7907 (.plain, .Ll) (.node .leaf 7908 7908 (.plain, .Lu) .leaf)) 7909 7909 (.plain, .Ll) (.node (.node .leaf 7910 7910 (.plain, .Lu) .leaf) 7911 7911 (.plain, .Ll) .leaf)) 7912 7912 (.plain, .Lu) (.node (.node (.node .leaf 7913 7913 (.plain, .Ll) .leaf) 7914 7914 (.plain, .Lu) .leaf) 7915 7915 (.plain, .Ll) (.node (.node .leaf 7916 7916 (.plain, .Lu) .leaf) 7917 7917 (.plain, .Ll) .leaf))) 7918 7918 (.plain, .Lu) (.node (.node (.node (.node .leaf 7919 7919 (.plain, .Ll) .leaf) 7920 7920 (.plain, .Lu) .leaf) 7921 7921 (.plain, .Ll) (.node (.node .leaf 7922 7922 (.plain, .Lu) .leaf) 7923 7923 (.plain, .Ll) .leaf)) 7924 7924 (.plain, .Lu) (.node (.node (.node .leaf 7925 7925 (.plain, .Ll) .leaf) 7926 7926 (.plain, .Lu) .leaf) 7927 7927 (.plain, .Ll) (.node (.node .leaf 7928 7928 (.plain, .Lu) .leaf) 7929 7929 (.plain, .Ll) .leaf)))) 7930 7930 (.plain, .Lu) (.node (.node (.node (.node (.node .leaf 7931 7931 (.plain, .Ll) .leaf) 7932 7932 (.plain, .Lu) (.node .leaf 7933 7933 (.plain, .Ll) .leaf)) 7934 7934 (.plain, .Lu) (.node (.node .leaf 7935 7943 (.plain, .Ll) .leaf) 7944 7951 (.plain, .Lu) .leaf)) 7952 7957 (.plain, .Ll) (.node (.node (.node .leaf 7960 7965 (.plain, .Lu) .leaf) 7968 7975 (.plain, .Ll) .leaf) 7976 7983 (.plain, .Lu) (.node (.node .leaf 7984 7991 (.plain, .Ll) .leaf) 7992 7999 (.plain, .Lu) .leaf))) 8000 8005 (.plain, .Ll) (.node (.node (.node (.node .leaf 8008 8013 (.plain, .Lu) .leaf) 8016 8023 (.plain, .Ll) .leaf) 8025 8025 (.plain, .Lu) (.node (.node .leaf 8027 8027 (.plain, .Lu) .leaf) 8029 8029 (.plain, .Lu) .leaf)) 8031 8031 (.plain, .Lu) (.node (.node (.node .leaf 8032 8039 (.plain, .Ll) .leaf) 8040 8047 (.plain, .Lu) .leaf) 8048 8061 (.plain, .Ll) (.node (.node .leaf 8064 8071 (.plain, .Ll) .leaf) 8072 8079 (.plain, .Lt) .leaf))))))

def categoryTable15 : RTree (Kind × Cat) := (.node (.node (.node (.node (.node (.node (.node .leaf 8088 8095 (.plain, .Lt) .leaf) 8096 8103 (.plain, .Ll) (.node .leaf 8104 8111 (.plain, .Lt) .leaf)) 8112 8116 (.plain, .Ll) (.node (.node .leaf 8118 8119 (.plain, .Ll) .leaf) 8120 8123 (.plain, .Lu) .leaf)) 8124 8124 (.plain, .Lt) (.node (.node (.node .leaf 8125 8125 (.plain, .Sk) .leaf) 8126 8126 (.plain, .Ll) .leaf) 8127 8129 (.plain, .Sk) (.node (.node .leaf 8130 8132 (.plain, .Ll) .leaf) 8134 8135 (.plain, .Ll) .leaf))) 8136 8139 (.plain, .Lu) (.node (.node (.node (.node .leaf 8140 8140 (.plain, .Lt) .leaf) 8141 8143 (.plain, .Sk) .leaf) 8144 8147 (.plain, .Ll) (.node (.node .leaf 8150 8151 (.plain, .Ll) .leaf) 8152 8155 (.plain, .Lu) .leaf)) 8157 8159 (.plain, .Sk) (.node (.node (.node .leaf 8160 8167 (.plain, .Ll) .leaf) 8168 8172 (.plain, .Lu) .leaf) 8173 8175 (.plain, .Sk) (.node (.node .leaf 8178 8180 (.plain, .Ll) .leaf) 8182 8183 (.plain, .Ll) .leaf)))) 8184 8187 (.plain, .Lu) (.node (.node (.node (.node (.node .leaf 8188 8188 (.plain, .Lt) .leaf) 8189 8190 (.plain, .Sk) (.node .leaf 8192 8202 (.plain, .Zs) .leaf)) 8203 8207 (.plain, .Cf) (.node (.node .leaf 8208 8213 (.plain, .Pd) .leaf) 8214 8215 (.plain, .Po) .leaf)) 8216 8216 (.plain, .Pi) (.node (.node (.node .leaf 8217 8217 (.plain, .Pf) .leaf) 8218 8218 (.plain, .Ps) .leaf) 8219 8220 (.plain, .Pi) (.node (.node .leaf 8221 8221 (.plain, .Pf) .leaf) 8222 8222 (.plain, .Ps) .leaf))) 8223 8223 (.plain, .Pi) (.node (.node (.node (.node .leaf 8224 8231 (.plain, .Po) .leaf) 8232 8232 (.plain, .Zl) .leaf) 8233 8233 (.plain, .Zp) (.node (.node .leaf 8234 8238 (.plain, .Cf) .leaf) 8239 8239 (.plain, .Zs) .leaf)) 8240 8248 (.plain, .Po) (.node (.node (.node .leaf 8249 8249 (.plain, .Pi) .leaf) 8250 8250 (.plain, .Pf) .leaf) 8251 8254 (.plain, .Po) (.node (.node .leaf 8255 8256 (.plain, .Pc) .leaf) 8257 8259 (.plain, .Po) .leaf))))) 8260 8260 (.plain, .Sm) (.node (.node (.node (.node (.node (.node .leaf 8261 8261 (.plain, .Ps) .leaf) 8262 8262 (.plain, .Pe) (.node .leaf 8263 8273 (.plain, .Po) .leaf)) 8274 8274 (.plain, .Sm) (.node (.node .leaf 8275 8275 (.plain, .Po) .leaf) 8276 8276 (.plain, .Pc) .leaf)) 8277 8286 (.plain, .Po) (.node (.node (.node .leaf 8287 8287 (.plain, .Zs) .leaf) 8288 8292 (.plain, .Cf) .leaf) 8294 8303 (.plain, .Cf) (.node (.node .leaf 8304 8304 (.plain, .No) .leaf) 8305 8305 (.plain, .Lm) .leaf))) 8308 8313 (.plain, .No) (.node (.node (.node (.node .leaf 8314 8316 (.plain, .Sm) .leaf) 8317 8317 (.plain, .Ps) .leaf) 8318 8318 (.plain, .Pe) (.node (.node .leaf 8319 8319 (.plain, .Lm) .leaf) 8320 8329 (.plain, .No) .leaf)) 8330 8332 (.plain, .Sm) (.node (.node (.node .leaf 8333 8333 (.plain, .Ps) .leaf) 8334 8334 (.plain, .Pe) .leaf) 8336 8348 (.plain, .Lm) (.node (.node .leaf 8352 8383 (.plain, .Sc) .leaf) 8400 8412 (.plain, .Mn) .leaf)))) 8413 8416 (.plain, .Me) (.node (.node (.node (.node (.node .leaf 8417 8417 (.plain, .Mn) .leaf) 8418 8420 (.plain, .Me) (.node .leaf 8421 8432 (.plain, .Mn) .leaf)) 8448 8449 (.plain, .So) (.node (.node .leaf 8450 8450 (.plain, .Lu) .leaf) 8451 8454 (.plain, .So) .leaf)) 8455 8455 (.plain, .Lu) (.node (.node (.node .leaf 8456 8457 (.plain, .So) .leaf) 8458 8458 (.plain, .Ll) .leaf) 8459 8461 (.plain, .Lu) (.node (.node .leaf 8462 8463 (.plain, .Ll) .leaf) 8464 8466 (.plain, .Lu) .leaf))) 8467 8467 (.plain, .Ll) (.node (.node (.node (.node .leaf 8468 8468 (.plain, .So) .leaf) 8469 8469 (.plain, .Lu) .leaf) 8470 8471 (.plain, .So) (.node (.node .leaf 8472 8472 (.plain, .Sm) .leaf) 8473 8477 (.plain, .Lu) .leaf)) 8478 8483 (.plain, .So) (.node (.node (.node .leaf 8484 8484 (.plain, .Lu) .leaf) 8485 8485 (.plain, .So) .leaf) 8486 8486 (.plain, .Lu) (.node (.node .leaf 8487 8487 (.plain, .So) .leaf) 8488 8488 (.plain, .Lu) .leaf))))))

def categoryTable16 : RTree (Kind × Cat) := (.node (.node (.node (.node (.node (.node (.node .leaf 8490 8493 (.plain, .Lu) .leaf) 8494 8494 (.plain, .So) (.node .leaf 8495 8495 (.plain, .Ll) .leaf)) 8496 8499 (.plain, .Lu) (.node (.node .leaf 8500 8500 (.plain, .Ll) .leaf) 8501 8504 (.plain, .Lo) .leaf)) 8505 8505 (.plain, .Ll) (.node (.node (.node .leaf 8506 8507 (.plain, .So) .leaf) 8508 8509 (.plain, .Ll) .leaf) 8510 8511 (.plain, .Lu) (.node (.node .leaf 8512 8516 (.plain, .Sm) .leaf) 8517 8517 (.plain, .Lu) .leaf))) 8518 8521 (.plain, .Ll) (.node (.node (.node (.node .leaf 8522 8522 (.plain, .So) .leaf) 8523 8523 (.plain, .Sm) (.node .leaf 8524 8525 (.plain, .So) .leaf)) 8526 8526 (.plain, .Ll) (.node (.node .leaf 8527 8527 (.plain, .So) .leaf) 8528 8543 (.plain, .No) .leaf)) 8544 8578 (.plain, .Nl) (.node (.node (.node .leaf 8579 8579 (.plain, .Lu) .leaf) 8580 8580 (.plain, .Ll) .leaf) 8581 8584 (.plain, .Nl) (.node (.node .leaf 8585 8585 (.plain, .No) .leaf) 8586 8587 (.plain, .So) .leaf)))) 8592 8596 (.plain, .Sm) (.node (.node (.node (.node (.node .leaf 8597 8601 (.plain, .So) .leaf) 8602 8603 (.plain, .Sm) (.node .leaf 8604 8607 (.plain, .So) .leaf)) 8608 8608 (.plain, .Sm) (.node (.node .leaf 8609 8610 (.plain, .So) .leaf) 8611 8611 (.plain, .Sm) .leaf)) 8612 8613 (.plain, .So) (.node (.node (.node .leaf 8614 8614 (.plain, .Sm) .leaf) 8615 8621 (.plain, .So) .leaf) 8622 8622 (.plain, .Sm) (.node (.node .leaf 8623 8653 (.plain, .So) .leaf) 8654 8655 (.plain, .Sm) .leaf))) 8656 8657 (.plain, .So) (.node (.node (.node (.node .leaf 8658 8658 (.plain, .Sm) .leaf) 8659 8659 (.plain, .So) .leaf) 8660 8660 (.plain, .Sm) (.node (.node .leaf 8661 8691 (.plain, .So) .leaf) 8692 8959 (.plain, .Sm) .leaf)) 8960 8967 (.plain, .So) (.node (.node (.node .leaf 8968 8968 (.plain, .Ps) .leaf) 8969 8969 (.plain, .Pe) .leaf) 8970 8970 (.plain, .Ps) (.node (.node .leaf 8971 8971 (.plain, .Pe) .leaf) 8972 8991 (.plain, .So) .leaf))))) 8992 8993 (.plain, .Sm) (.node (.node (.node (.node (.node (.node .leaf 8994 9000 (.plain, .So) .leaf) 9001 9001 (.plain, .Ps) (.node .leaf 9002 9002 (.plain, .Pe) .leaf)) 9003 9083 (.plain, .So) (.node (.node .leaf 9084 9084 (.plain, .Sm) .leaf) 9085 9114 (.plain, .So) .leaf)) 9115 9139 (.plain, .Sm) (.node (.node (.node .leaf 9140 9179 (.plain, .So) .leaf) 9180 9185 (.plain, .Sm) .leaf) 9186 9254 (.plain, .So) (.node (.node .leaf 9280 9290 (.plain, .So) .leaf) 9312 9371 (.plain, .No) .leaf))) 9372 9449 (.plain, .So) (.node (.node (.node (.node .leaf 9450 9471 (.plain, .No) .leaf) 9472 9654 (.plain, .So) .leaf) 9655 9655 (.plain, .Sm) (.node (.node .leaf 9656 9664 (.plain, .So) .leaf) 9665 9665 (.plain, .Sm) .leaf)) 9666 9719 (.plain, .So) (.node (.node (.node .leaf 9720 9727 (.plain, .Sm) .leaf) 9728 9838 (.plain, .So) .leaf) 9839 9839 (.plain, .Sm) (.node (.node .leaf 9840 10087 (.plain, .So) .leaf) 10088 10088 (.plain, .Ps) .leaf)))) 10089 10089 (.plain, .Pe) (.node (.node (.node (.node (.node .leaf 10090 10090 (.plain, .Ps) .leaf) 10091 10091 (.plain, .Pe) (.node .leaf 10092 10092 (.plain, .Ps) .leaf)) 10093 10093 (.plain, .Pe) (.node (.node .leaf 10094 10094 (.plain, .Ps) .leaf) 10095 10095 (.plain, .Pe) .leaf)) 10096 10096 (.plain, .Ps) (.node (.node (.node .leaf 10097 10097 (.plain, .Pe) .leaf) 10098 10098 (.plain, .Ps) .leaf) 10099 10099 (.plain, .Pe) (.node (.node .leaf 10100 10100 (.plain, .Ps) .leaf) 10101 10101 (.plain, .Pe) .leaf))) 10102 10131 (.plain, .No) (.node (.node (.node (.node .leaf 10132 10175 (.plain, .So) .leaf) 10176 10180 (.plain, .Sm) .leaf) 10181 10181 (.plain, .Ps) (.node (.node .leaf 10182 10182 (.plain, .Pe) .leaf) 10183 10213 (.plain, .Sm) .leaf)) 10214 10214 (.plain, .Ps) (.node (.node (.node .leaf 10215 10215 (.plain, .Pe) .leaf) 10216 10216 (.plain, .Ps) .leaf) 10217 10217 (.plain, .Pe) (.node (.node .leaf 10218 10218 (.plain, .Ps) .leaf) 10219 10219 (.plain, .Pe) .leaf))))))

def categoryTable17 : RTree (Kind × Cat) := (.node (.node (.node (.node (.node (.node (.node .leaf 10221 10221 (.plain, .Pe) .leaf) 10222 10222 (.plain, .Ps) (.node .leaf 10223 10223 (.plain, .Pe) .leaf)) 10224 10239 (.plain, .Sm) (.node (.node .leaf 10240 10495 (.plain, .So) .leaf) 10496 10626 (.plain, .Sm) .leaf)) 10627 10627 (.plain, .Ps) (.node (.node (.node .leaf 10628 10628 (.plain, .Pe) .leaf) 10629 10629 (.plain, .Ps) .leaf) 10630 10630 (.plain, .Pe) (.node (.node .leaf 10631 10631 (.plain, .Ps) .leaf) 10632 10632 (.plain, .Pe) .leaf))) 10633 10633 (.plain, .Ps) (.node (.node (.node (.node .leaf 10634 10634 (.plain, .Pe) .leaf) 10635 10635 (.plain, .Ps) (.node .leaf 10636 10636 (.plain, .Pe) .leaf)) 10637 10637 (.plain, .Ps) (.node (.node .leaf 10638 10638 (.plain, .Pe) .leaf) 10639 10639 (.plain, .Ps) .leaf)) 10640 10640 (.plain, .Pe) (.node (.node (.node .leaf 10641 10641 (.plain, .Ps) .leaf) 10642 10642 (.plain, .Pe) .leaf) 10643 10643 (.plain, .Ps) (.node (.node .leaf 10644 10644 (.plain, .Pe) .leaf) 10645 10645 (.plain, .Ps) .leaf)))) 10646 10646 (.plain, .Pe) (.node (.node (.node (.node (.node .leaf 10647 10647 (.plain, .Ps) .leaf) 10648 10648 (.plain, .Pe) (.node .leaf 10649 10711 (.plain, .Sm) .leaf)) 10712 10712 (.plain, .Ps) (.node (.node .leaf 10713 10713 (.plain, .Pe) .leaf) 10714 10714 (.plain, .Ps) .leaf)) 10715 10715 (.plain, .Pe) (.node (.node (.node .leaf 10716 10747 (.plain, .Sm) .leaf) 10748 10748 (.plain, .Ps) .leaf) 10749 10749 (.plain, .Pe) (.node (.node .leaf 10750 11007 (.plain, .Sm) .leaf) 11008 11055 (.plain, .So) .leaf))) 11056 11076 (.plain, .Sm) (.node (.node (.node (.node .leaf 11077 11078 (.plain, .So) .leaf) 11079 11084 (.plain, .Sm) .leaf) 11085 11123 (.plain, .So) (.node (.node .leaf 11126 11157 (.plain, .So) .leaf) 11159 11263 (.plain, .So) .leaf)) 11264 11310 (.plain, .Lu) (.node (.node (.node .leaf 11312 11358 (.plain, .Ll) .leaf) 11360 11360 (.plain, .Lu) .leaf) 11361 11361 (.plain, .Ll) (.node (.node .leaf 11362 11364 (.plain, .Lu) .leaf) 11365 11366 (.plain, .Ll) .leaf))))) 11367 11367 (.plain, .Lu) (.node (.node (.node (.node (.node (.node .leaf 11368 11368 (.plain, .Ll) .leaf) 11369 11369 (.plain, .Lu) (.node .leaf 11370 11370 (.plain, .Ll) .leaf)) 11371 11371 (.plain, .Lu) (.node (.node .leaf 11372 11372 (.plain, .Ll) .leaf) 11373 11376 (.plain, .Lu) .leaf)) 11377 11377 (.plain, .Ll) (.node (.node (.node .leaf 11378 11378 (.plain, .Lu) .leaf) 11379 11380 (.plain, .Ll) .leaf) 11381 11381 (.plain, .Lu) (.node (.node .leaf 11382 11387 (.plain, .Ll) .leaf) 11388 11389 (.plain, .Lm) .leaf))) 11390 11392 (.plain, .Lu) (.node (.node (.node (.node .leaf 11393 11393 (.plain, .Ll) .leaf) 11394 11394 (.plain, .Lu) .leaf) 11395 11395 (.plain, .Ll) (.node (.node .leaf 11396 11396 (.plain, .Lu) .leaf) 11397 11397 (.plain, .Ll) .leaf)) 11398 11398 (.plain, .Lu) (.node (.node (.node .leaf 11399 11399 (.plain, .Ll) .leaf) 11400 11400 (.plain, .Lu) .leaf) 11401 11401 (.plain, .Ll) (.node (.node .leaf 11402 11402 (.plain, .Lu) .leaf) 11403 11403 (.plain, .Ll) .leaf)))) 11404 11404 (.plain, .Lu) (.node (.node (.node (.node (.node .leaf 11405 11405 (.plain, .Ll) .leaf) 11406 11406 (.plain, .Lu) (.node .leaf 11407 11407 (.plain, .Ll) .leaf)) 11408 11408 (.plain, .Lu) (.node (.node .leaf 11409 11409 (.plain, .Ll) .leaf) 11410 11410 (.plain, .Lu) .leaf)) 11411 11411 (.plain, .Ll) (.node (.node (.node .leaf 11412 11412 (.plain, .Lu) .leaf) 11413 11413 (.plain, .Ll) .leaf) 11414 11414 (.plain, .Lu) (.node (.node .leaf 11415 11415 (.plain, .Ll) .leaf) 11416 11416 (.plain, .Lu) .leaf))) 11417 11417 (.plain, .Ll) (.node (.node (.node (.node .leaf 11418 11418 (.plain, .Lu) .leaf) 11419 11419 (.plain, .Ll) .leaf) 11420 11420 (.plain, .Lu) (.node (.node .leaf 11421 11421 (.plain, .Ll) .leaf) 11422 11422 (.plain, .Lu) .leaf)) 11423 11423 (.plain, .Ll) (.node (.node (.node .leaf 11424 11424 (.plain, .Lu) .leaf) 11425 11425 (.plain, .Ll) .leaf) 11426 11426 (.plain, .Lu) (.node (.node .leaf 11427 11427 (.plain, .Ll) .leaf) 11428 11428 (.plain, .Lu) .leaf))))))

def categoryTable18 : RTree (Kind × Cat) := (.node (.node (.node (.node (.node (.node (.node .leaf 11430 11430 (.plain, .Lu) .leaf) 11431 11431 (.plain, .Ll) (.node .leaf 11432 11432 (.plain, .Lu) .leaf)) 11433 11433 (.plain, .Ll) (.node (.node .leaf 11434 11434 (.plain, .Lu) .leaf) 11435 11435 (.plain, .Ll) .leaf)) 11436 11436 (.plain, .Lu) (.node (.node (.node .leaf 11437 11437 (.plain, .Ll) .leaf) 11438 11438 (.plain, .Lu) .leaf) 11439 11439 (.plain, .Ll) (.node (.node .leaf 11440 11440 (.plain, .Lu) .leaf) 11441 11441 (.plain, .Ll) .leaf))) 11442 11442 (.plain, .Lu) (.node (.node (.node (.node .leaf 11443 11443 (.plain, .Ll) .leaf) 11444 11444 (.plain, .Lu) (.node .leaf 11445 11445 (.plain, .Ll) .leaf)) 11446 11446 (.plain, .Lu) (.node (.node .leaf 11447 11447 (.plain, .Ll) .leaf) 11448 11448 (.plain, .Lu) .leaf)) 11449 11449 (.plain, .Ll) (.node (.node (.node .leaf 11450 11450 (.plain, .Lu) .leaf) 11451 11451 (.plain, .Ll) .leaf) 11452 11452 (.plain, .Lu) (.node (.node .leaf 11453 11453 (.plain, .Ll) .leaf) 11454 11454 (.plain, .Lu) .leaf)))) 11455 11455 (.plain, .Ll) (.node (.node (.node (.node (.node .leaf 11456 11456 (.plain, .Lu) .leaf) 11457 11457 (.plain, .Ll) (.node .leaf 11458 11458 (.plain, .Lu) .leaf)) 11459 11459 (.plain, .Ll) (.node (.node .leaf 11460 11460 (.plain, .Lu) .leaf) 11461 11461 (.plain, .Ll) .leaf)) 11462 11462 (.plain, .Lu) (.node (.node (.node .leaf 11463 11463 (.plain, .Ll) .leaf) 11464 11464 (.plain, .Lu) .leaf) 11465 11465 (.plain, .Ll) (.node (.node .leaf 11466 11466 (.plain, .Lu) .leaf) 11467 11467 (.plain, .Ll) .leaf))) 11468 11468 (.plain, .Lu) (.node (.node (.node (.node .leaf 11469 11469 (.plain, .Ll) .leaf) 11470 11470 (.plain, .Lu) .leaf) 11471 11471 (.plain, .Ll) (.node (.node .leaf 11472 11472 (.plain, .Lu) .leaf) 11473 11473 (.plain, .Ll) .leaf)) 11474 11474 (.plain, .Lu) (.node (.node (.node .leaf 11475 11475 (.plain, .Ll) .leaf) 11476 11476 (.plain, .Lu) .leaf) 11477 11477 (.plain, .Ll) (.node (.node .leaf 11478 11478 (.plain, .Lu) .leaf) 11479 11479 (.plain, .Ll) .leaf))))) 11480 11480 (.plain, .Lu) (.node (.node (.node (.node (.node (.node .leaf 11481 11481 (.plain, .Ll) .leaf) 11482 11482 (.plain, .Lu) (.node .leaf 11483 11483 (.plain, .Ll) .leaf)) 11484 11484 (.plain, .Lu) (.node (.node .leaf 11485 11485 (.plain, .Ll) .leaf) 11486 11486 (.plain, .Lu) .leaf)) 11487 11487 (.plain, .Ll) (.node (.node (.node .leaf 11488 11488 (.plain, .Lu) .leaf) 11489 11489 (.plain, .Ll) .leaf) 11490 11490 (.plain, .Lu) (.node (.node .leaf 11491 11492 (.plain, .Ll) .leaf) 11493 11498 (.plain, .So) .leaf))) 11499 11499 (.plain, .Lu) (.node (.node (.node (.node .leaf 11500 11500 (.plain, .Ll) .leaf) 11501 11501 (.plain, .Lu) .leaf) 11502 11502 (.plain, .Ll) (.node (.node .leaf 11503 11505 (.plain, .Mn) .leaf) 11506 11506 (.plain, .Lu) .leaf)) 11507 11507 (.plain, .Ll) (.node (.node (.node .leaf 11513 11516 (.plain, .Po) .leaf) 11517 11517 (.plain, .No) .leaf) 11518 11519 (.plain, .Po) (.node (.node .leaf 11520 11557 (.plain, .Ll) .leaf) 11559 11559 (.plain, .Ll) .leaf)))) 11565 11565 (.plain, .Ll) (.node (.node (.node (.node (.node .leaf 11568 11623 (.plain, .Lo) .leaf) 11631 11631 (.plain, .Lm) (.node .leaf 11632 11632 (.plain, .Po) .leaf)) 11647 11647 (.plain, .Mn) (.node (.node .leaf 11648 11670 (.plain, .Lo) .leaf) 11680 11686 (.plain, .Lo) .leaf)) 11688 11694 (.plain, .Lo) (.node (.node (.node .leaf 11696 11702 (.plain, .Lo) .leaf) 11704 11710 (.plain, .Lo) .leaf) 11712 11718 (.plain, .Lo) (.node (.node .leaf 11720 11726 (.plain, .Lo) .leaf) 11728 11734 (.plain, .Lo) .leaf))) 11736 11742 (.plain, .Lo) (.node (.node (.node (.node .leaf 11744 11775 (.plain, .Mn) .leaf) 11776 11777 (.plain, .Po) .leaf) 11778 11778 (.plain, .Pi) (.node (.node .leaf 11779 11779 (.plain, .Pf) .leaf) 11780 11780 (.plain, .Pi) .leaf)) 11781 11781 (.plain, .Pf) (.node (.node (.node .leaf 11782 11784 (.plain, .Po) .leaf) 11785 11785 (.plain, .Pi) .leaf) 11786 11786 (.plain, .Pf) (.node (.node .leaf 11787 11787 (.plain, .Po) .leaf) 11788 11788 (.plain, .Pi) .leaf))))))

def categoryTable19 : RTree (Kind × Cat) := (.node (.node (.node (.node (.node (.node (.node .leaf 11790 11798 (.plain, .Po) .leaf) 11799 11799 (.plain, .Pd) (.node .leaf 11800 11801 (.plain, .Po) .leaf)) 11802 11802 (.plain, .Pd) (.node (.node .leaf 11803 11803 (.plain, .Po) .leaf) 11804 11804 (.plain, .Pi) .leaf)) 11805 11805 (.plain, .Pf) (.node (.node (.node .leaf 11806 11807 (.plain, .Po) .leaf) 11808 11808 (.plain, .Pi) .leaf) 11809 11809 (.plain, .Pf) (.node (.node .leaf 11810 11810 (.plain, .Ps) .leaf) 11811 11811 (.plain, .Pe) .leaf))) 11812 11812 (.plain, .Ps) (.node (.node (.node (.node .leaf 11813 11813 (.plain, .Pe) .leaf) 11814 11814 (.plain, .Ps) .leaf) 11815 11815 (.plain, .Pe) (.node (.node .leaf 11816 11816 (.plain, .Ps) .leaf) 11817 11817 (.plain, .Pe) .leaf)) 11818 11822 (.plain, .Po) (.node (.node (.node .leaf 11823 11823 (.plain, .Lm) .leaf) 11824 11833 (.plain, .Po) .leaf) 11834 11835 (.plain, .Pd) (.node (.node .leaf 11836 11839 (.plain, .Po) .leaf) 11840 11840 (.plain, .Pd) .leaf)))) 11841 11841 (.plain, .Po) (.node (.node (.node (.node (.node .leaf 11842 11842 (.plain, .Ps) .leaf) 11843 11855 (.plain, .Po) (.node .leaf 11856 11857 (.plain, .So) .leaf)) 11858 11858 (.plain, .Po) (.node (.node .leaf 11904 11929 (.plain, .So) .leaf) 11931 12019 (.plain, .So) .leaf)) 12032 12245 (.plain, .So) (.node (.node (.node .leaf 12272 12283 (.plain, .So) .leaf) 12288 12288 (.plain, .Zs) .leaf) 12289 12291 (.plain, .Po) (.node (.node .leaf 12292 12292 (.plain, .So) .leaf) 12293 12293 (.plain, .Lm) .leaf))) 12294 12294 (.plain, .Lo) (.node (.node (.node (.node .leaf 12295 12295 (.plain, .Nl) .leaf) 12296 12296 (.plain, .Ps) .leaf) 12297 12297 (.plain, .Pe) (.node (.node .leaf 12298 12298 (.plain, .Ps) .leaf) 12299 12299 (.plain, .Pe) .leaf)) 12300 12300 (.plain, .Ps) (.node (.node (.node .leaf 12301 12301 (.plain, .Pe) .leaf) 12302 12302 (.plain, .Ps) .leaf) 12303 12303 (.plain, .Pe) (.node (.node .leaf 12304 12304 (.plain, .Ps) .leaf) 12305 12305 (.plain, .Pe) .leaf))))) 12306 12307 (.plain, .So) (.node (.node (.node (.node (.node (.node .leaf 12308 12308 (.plain, .Ps) .leaf) 12309 12309 (.plain, .Pe) (.node .leaf 12310 12310 (.plain, .Ps) .leaf)) 12311 12311 (.plain, .Pe) (.node (.node .leaf 12312 12312 (.plain, .Ps) .leaf) 12313 12313 (.plain, .Pe) .leaf)) 12314 12314 (.plain, .Ps) (.node (.node (.node .leaf 12315 12315 (.plain, .Pe) .leaf) 12316 12316 (.plain, .Pd) .leaf) 12317 12317 (.plain, .Ps) (.node (.node .leaf 12318 12319 (.plain, .Pe) .leaf) 12320 12320 (.plain, .So) .leaf))) 12321 12329 (.plain, .Nl) (.node (.node (.node (.node .leaf 12330 12333 (.plain, .Mn) .leaf) 12334 12335 (.plain, .Mc) .leaf) 12336 12336 (.plain, .Pd) (.node (.node .leaf 12337 12341 (.plain, .Lm) .leaf) 12342 12343 (.plain, .So) .leaf)) 12344 12346 (.plain, .Nl) (.node (.node (.node .leaf 12347 12347 (.plain, .Lm) .leaf) 12348 12348 (.plain, .Lo) .leaf) 12349 12349 (.plain, .Po) (.node (.node .leaf 12350 12351 (.plain, .So) .leaf) 12353 12438 (.plain, .Lo) .leaf)))) 12441 12442 (.plain, .Mn) (.node (.node (.node (.node (.node .leaf 12443 12444 (.plain, .Sk) .leaf) 12445 12446 (.plain, .Lm) (.node .leaf 12447 12447 (.plain, .Lo) .leaf)) 12448 12448 (.plain, .Pd) (.node (.node .leaf 12449 12538 (.plain, .Lo) .leaf) 12539 12539 (.plain, .Po) .leaf)) 12540 12542 (.plain, .Lm) (.node (.node (.node .leaf 12543 12543 (.plain, .Lo) .leaf) 12549 12591 (.plain, .Lo) .leaf) 12593 12686 (.plain, .Lo) (.node (.node .leaf 12688 12689 (.plain, .So) .leaf) 12690 12693 (.plain, .No) .leaf))) 12694 12703 (.plain, .So) (.node (.node (.node (.node .leaf 12704 12735 (.plain, .Lo) .leaf) 12736 12771 (.plain, .So) .leaf) 12784 12799 (.plain, .Lo) (.node (.node .leaf 12800 12830 (.plain, .So) .leaf) 12832 12841 (.plain, .No) .leaf)) 12842 12871 (.plain, .So) (.node (.node (.node .leaf 12872 12879 (.plain, .No) .leaf) 12880 12880 (.plain, .So) .leaf) 12881 12895 (.plain, .No) (.node (.node .leaf 12896 12927 (.plain, .So) .leaf) 12928 12937 (.plain, .No) .leaf))))))

def categoryTable20 : RTree (Kind × Cat) := (.node (.node (.node (.node (.node (.node (.node .leaf 12977 12991 (.plain, .No) .leaf) 12992 13311 (.plain, .So) (.node .leaf 13312 13312 (.first, .Lo) .leaf)) 19903 19903 (.last, .Lo) (.node (.node .leaf 19904 19967 (.plain, .So) .leaf) 19968 19968 (.first, .Lo) .leaf)) 40956 40956 (.last, .Lo) (.node (.node (.node .leaf 40960 40980 (.plain, .Lo) .leaf) 40981 40981 (.plain, .Lm) .leaf) 40982 42124 (.plain, .Lo) (.node (.node .leaf 42128 42182 (.plain, .So) .leaf) 42192 42231 (.plain, .Lo) .leaf))) 42232 42237 (.plain, .Lm) (.node (.node (.node (.node .leaf 42238 42239 (.plain, .Po) .leaf) 42240 42507 (.plain, .Lo) (.node .leaf 42508 42508 (.plain, .Lm) .leaf)) 42509 42511 (.plain, .Po) (.node (.node .leaf 42512 42527 (.plain, .Lo) .leaf) 42528 42537 (.plain, .Nd) .leaf)) 42538 42539 (.plain, .Lo) (.node (.node (.node .leaf 42560 42560 (.plain, .Lu) .leaf) 42561 42561 (.plain, .Ll) .leaf) 42562 42562 (.plain, .Lu) (.node (.node .leaf 42563 42563 (.plain, .Ll) .leaf) 42564 42564 (.plain, .Lu) .leaf)))) 42565 42565 (.plain, .Ll) (.node (.node (.node (.node (.node .leaf 42566 42566 (.plain, .Lu) .leaf) 42567 42567 (.plain, .Ll) (.node .leaf 42568 42568 (.plain, .Lu) .leaf)) 42569 42569 (.plain, .Ll) (.node (.node .leaf 42570 42570 (.plain, .Lu) .leaf) 42571 42571 (.plain, .Ll) .leaf)) 42572 42572 (.plain, .Lu) (.node (.node (.node .leaf 42573 42573 (.plain, .Ll) .leaf) 42574 42574 (.plain, .Lu) .leaf) 42575 42575 (.plain, .Ll) (.node (.node .leaf 42576 42576 (.plain, .Lu) .leaf) 42577 42577 (.plain, .Ll) .leaf))) 42578 42578 (.plain, .Lu) (.node (.node (.node (.node .leaf 42579 42579 (.plain, .Ll) .leaf) 42580 42580 (.plain, .Lu) .leaf) 42581 42581 (.plain, .Ll) (.node (.node .leaf 42582 42582 (.plain, .Lu) .leaf) 42583 42583 (.plain, .Ll) .leaf)) 42584 42584 (.plain, .Lu) (.node (.node (.node .leaf 42585 42585 (.plain, .Ll) .leaf) 42586 42586 (.plain, .Lu) .leaf) 42587 42587 (.plain, .Ll) (.node (.node .leaf 42588 42588 (.plain, .Lu) .leaf) 42589 42589 (.plain, .Ll) .leaf))))) 42590 42590 (.plain, .Lu) (.node (.node (.node (.node (.node (.node .leaf 42591 42591 (.plain, .Ll) .leaf) 42592 42592 (.plain, .Lu) (.node .leaf 42593 42593 (.plain, .Ll) .leaf)) 42594 42594 (.plain, .Lu) (.node (.node .leaf 42595 42595 (.plain, .Ll) .leaf) 42596 42596 (.plain, .Lu) .leaf)) 42597 42597 (.plain, .Ll) (.node (.node (.node .leaf 42598 42598 (.plain, .Lu) .leaf) 42599 42599 (.plain, .Ll) .leaf) 42600 42600 (.plain, .Lu) (.node (.node .leaf 42601 42601 (.plain, .Ll) .leaf) 42602 42602 (.plain, .Lu) .leaf))) 42603 42603 (.plain, .Ll) (.node (.node (.node (.node .leaf 42604 42604 (.plain, .Lu) .leaf) 42605 42605 (.plain, .Ll) .leaf) 42606 42606 (.plain, .Lo) (.node (.node .leaf 42607 42607 (.plain, .Mn) .leaf) 42608 42610 (.plain, .Me) .leaf)) 42611 42611 (.plain, .Po) (.node (.node (.node .leaf 42612 42621 (.plain, .Mn) .leaf) 42622 42622 (.plain, .Po) .leaf) 42623 42623 (.plain, .Lm) (.node (.node .leaf 42624 42624 (.plain, .Lu) .leaf) 42625 42625 (.plain, .Ll) .leaf)))) 42626 42626 (.plain, .Lu) (.node (.node (.node (.node (.node .leaf 42627 42627 (.plain, .Ll) .leaf) 42628 42628 (.plain, .Lu) (.node .leaf 42629 42629 (.plain, .Ll) .leaf)) 42630 42630 (.plain, .Lu) (.node (.node .leaf 42631 42631 (.plain, .Ll) .leaf) 42632 42632 (.plain, .Lu) .leaf)) 42633 42633 (.plain, .Ll) (.node (.node (.node .leaf 42634 42634 (.plain, .Lu) .leaf) 42635 42635 (.plain, .Ll) .leaf) 42636 42636 (.plain, .Lu) (.node (.node .leaf 42637 42637 (.plain, .Ll) .leaf) 42638 42638 (.plain, .Lu) .leaf))) 42639 42639 (.plain, .Ll) (.node (.node (.node (.node .leaf 42640 42640 (.plain, .Lu) .leaf) 42641 42641 (.plain, .Ll) .leaf) 42642 42642 (.plain, .Lu) (.node (.node .leaf 42643 42643 (.plain, .Ll) .leaf) 42644 42644 (.plain, .Lu) .leaf)) 42645 42645 (.plain, .Ll) (.node (.node (.node .leaf 42646 42646 (.plain, .Lu) .leaf) 42647 42647 (.plain, .Ll) .leaf) 42648 42648 (.plain, .Lu) (.node (.node .leaf 42649 42649 (.plain, .Ll) .leaf) 42650 42650 (.plain, .Lu) .leaf))))))

def categoryTable21 : RTree (Kind × Cat) := (.node (.node (.node (.node (.node (.node (.node .leaf 42652 42653 (.plain, .Lm) .leaf) 42654 42655 (.plain, .Mn) (.node .leaf 42656 42725 (.plain, .Lo) .leaf)) 42726 42735 (.plain, .Nl) (.node (.node .leaf 42736 42737 (.plain, .Mn) .leaf) 42738 42743 (.plain, .Po) .leaf)) 42752 42774 (.plain, .Sk) (.node (.node (.node .leaf 42775 42783 (.plain, .Lm) .leaf) 42784 42785 (.plain, .Sk) .leaf) 42786 42786 (.plain, .Lu) (.node (.node .leaf 42787 42787 (.plain, .Ll) .leaf) 42788 42788 (.plain, .Lu) .leaf))) 42789 42789 (.plain, .Ll) (.node (.node (.node (.node .leaf 42790 42790 (.plain, .Lu) .leaf) 42791 42791 (.plain, .Ll) .leaf) 42792 42792 (.plain, .Lu) (.node (.node .leaf 42793 42793 (.plain, .Ll) .leaf) 42794 42794 (.plain, .Lu) .leaf)) 42795 42795 (.plain, .Ll) (.node (.node (.node .leaf 42796 42796 (.plain, .Lu) .leaf) 42797 42797 (.plain, .Ll) .leaf) 42798 42798 (.plain, .Lu) (.node (.node .leaf 42799 42801 (.plain, .Ll) .leaf) 42802 42802 (.plain, .Lu) .leaf)))) 42803 42803 (.plain, .Ll) (.node (.node (.node (.node (.node .leaf 42804 42804 (.plain, .Lu) .leaf) 42805 42805 (.plain, .Ll) (.node .leaf 42806 42806 (.plain, .Lu) .leaf)) 42807 42807 (.plain, .Ll) (.node (.node .leaf 42808 42808 (.plain, .Lu) .leaf) 42809 42809 (.plain, .Ll) .leaf)) 42810 42810 (.plain, .Lu) (.node (.node (.node .leaf 42811 42811 (.plain, .Ll) .leaf) 42812 42812 (.plain, .Lu) .leaf) 42813 42813 (.plain, .Ll) (.node (.node .leaf 42814 42814 (.plain, .Lu) .leaf) 42815 42815 (.plain, .Ll) .leaf))) 42816 42816 (.plain, .Lu) (.node (.node (.node (.node .leaf 42817 42817 (.plain, .Ll) .leaf) 42818 42818 (.plain, .Lu) .leaf) 42819 42819 (.plain, .Ll) (.node (.node .leaf 42820 42820 (.plain, .Lu) .leaf) 42821 42821 (.plain, .Ll) .leaf)) 42822 42822 (.plain, .Lu) (.node (.node (.node .leaf 42823 42823 (.plain, .Ll) .leaf) 42824 42824 (.plain, .Lu) .leaf) 42825 42825 (.plain, .Ll) (.node (.node .leaf 42826 42826 (.plain, .Lu) .leaf) 42827 42827 (.plain, .Ll) .leaf))))) 42828 42828 (.plain, .Lu) (.node (.node (.node (.node (.node (.node .leaf 42829 42829 (.plain, .Ll) .leaf) 42830 42830 (.plain, .Lu) (.node .leaf 42831 42831 (.plain, .Ll) .leaf)) 42832 42832 (.plain, .Lu) (.node (.node .leaf 42833 42833 (.plain, .Ll) .leaf) 42834 42834 (.plain, .Lu) .leaf)) 42835 42835 (.plain, .Ll) (.node (.node (.node .leaf 42836 42836 (.plain, .Lu) .leaf) 42837 42837 (.plain, .Ll) .leaf) 42838 42838 (.plain, .Lu) (.node (.node .leaf 42839 42839 (.plain, .Ll) .leaf) 42840 42840 (.plain, .Lu) .leaf))) 42841 42841 (.plain, .Ll) (.node (.node (.node (.node .leaf 42842 42842 (.plain, .Lu) .leaf) 42843 42843 (.plain, .Ll) .leaf) 42844 42844 (.plain, .Lu) (.node (.node .leaf 42845 42845 (.plain, .Ll) .leaf) 42846 42846 (.plain, .Lu) .leaf)) 42847 42847 (.plain, .Ll) (.node (.node (.node .leaf 42848 42848 (.plain, .Lu) .leaf) 42849 42849 (.plain, .Ll) .leaf) 42850 42850 (.plain, .Lu) (.node (.node .leaf 42851 42851 (.plain, .Ll) .leaf) 42852 42852 (.plain, .Lu) .leaf)))) 42853 42853 (.plain, .Ll) (.node (.node (.node (.node (.node .leaf 42854 42854 (.plain, .Lu) .leaf) 42855 42855 (.plain, .Ll) (.node .leaf 42856 42856 (.plain, .Lu) .leaf)) 42857 42857 (.plain, .Ll) (.node (.node .leaf 42858 42858 (.plain, .Lu) .leaf) 42859 42859 (.plain, .Ll) .leaf)) 42860 42860 (.plain, .Lu) (.node (.node (.node .leaf 42861 42861 (.plain, .Ll) .leaf) 42862 42862 (.plain, .Lu) .leaf) 42863 42863 (.plain, .Ll) (.node (.node .leaf 42864 42864 (.plain, .Lm) .leaf) 42865 42872 (.plain, .Ll) .leaf))) 42873 42873 (.plain, .Lu) (.node (.node (.node (.node .leaf 42874 42874 (.plain, .Ll) .leaf) 42875 42875 (.plain, .Lu) .leaf) 42876 42876 (.plain, .Ll) (.node (.node .leaf 42877 42878 (.plain, .Lu) .leaf) 42879 42879 (.plain, .Ll) .leaf)) 42880 42880 (.plain, .Lu) (.node (.node (.node .leaf 42881 42881 (.plain, .Ll) .leaf) 42882 42882 (.plain, .Lu) .leaf) 42883 42883 (.plain, .Ll) (.node (.node .leaf 42884 42884 (.plain, .Lu) .leaf) 42885 42885 (.plain, .Ll) .leaf))))))

def categoryTable22 : RTree (Kind × Cat) := (.node (.node (.node (.node (.node (.node (.node .leaf 42887 42887 (.plain, .Ll) .leaf) 42888 42888 (.plain, .Lm) (.node .leaf 42889 42890 (.plain, .Sk) .leaf)) 42891 42891 (.plain, .Lu) (.node (.node .leaf 42892 42892 (.plain, .Ll) .leaf) 42893 42893 (.plain, .Lu) .leaf)) 42894 42894 (.plain, .Ll) (.node (.node (.node .leaf 42895 42895 (.plain, .Lo) .leaf) 42896 42896 (.plain, .Lu) .leaf) 42897 42897 (.plain, .Ll) (.node (.node .leaf 42898 42898 (.plain, .Lu) .leaf) 42899 42901 (.plain, .Ll) .leaf))) 42902 42902 (.plain, .Lu) (.node (.node (.node (.node .leaf 42903 42903 (.plain, .Ll) .leaf) 42904 42904 (.plain, .Lu) (.node .leaf 42905 42905 (.plain, .Ll) .leaf)) 42906 42906 (.plain, .Lu) (.node (.node .leaf 42907 42907 (.plain, .Ll) .leaf) 42908 42908 (.plain, .Lu) .leaf)) 42909 42909 (.plain, .Ll) (.node (.node (.node .leaf 42910 42910 (.plain, .Lu) .leaf) 42911 42911 (.plain, .Ll) .leaf) 42912 42912 (.plain, .Lu) (.node (.node .leaf 42913 42913 (.plain, .Ll) .leaf) 42914 42914 (.plain, .Lu) .leaf)))) 42915 42915 (.plain, .Ll) (.node (.node (.node (.node (.node .leaf 42916 42916 (.plain, .Lu) .leaf) 42917 42917 (.plain, .Ll) (.node .leaf 42918 42918 (.plain, .Lu) .leaf)) 42919 42919 (.plain, .Ll) (.node (.node .leaf 42920 42920 (.plain, .Lu) .leaf) 42921 42921 (.plain, .Ll) .leaf)) 42922 42926 (.plain, .Lu) (.node (.node (.node .leaf 42927 42927 (.plain, .Ll) .leaf) 42928 42932 (.plain, .Lu) .leaf) 42933 42933 (.plain, .Ll) (.node (.node .leaf 42934 42934 (.plain, .Lu) .leaf) 42935 42935 (.plain, .Ll) .leaf))) 42936 42936 (.plain, .Lu) (.node (.node (.node (.node .leaf 42937 42937 (.plain, .Ll) .leaf) 42938 42938 (.plain, .Lu) .leaf) 42939 42939 (.plain, .Ll) (.node (.node .leaf 42940 42940 (.plain, .Lu) .leaf) 42941 42941 (.plain, .Ll) .leaf)) 42942 42942 (.plain, .Lu) (.node (.node (.node .leaf 42943 42943 (.plain, .Ll) .leaf) 42946 42946 (.plain, .Lu) .leaf) 42947 42947 (.plain, .Ll) (.node (.node .leaf 42948 42951 (.plain, .Lu) .leaf) 42952 42952 (.plain, .Ll) .leaf))))) 42953 42953 (.plain, .Lu) (.node (.node (.node (.node (.node (.node .leaf 42954 42954 (.plain, .Ll) .leaf) 42997 42997 (.plain, .Lu) (.node .leaf 42998 42998 (.plain, .Ll) .leaf)) 42999 42999 (.plain, .Lo) (.node (.node .leaf 43000 43001 (.plain, .Lm) .leaf) 43002 43002 (.plain, .Ll) .leaf)) 43003 43009 (.plain, .Lo) (.node (.node (.node .leaf 43010 43010 (.plain, .Mn) .leaf) 43011 43013 (.plain, .Lo) .leaf) 43014 43014 (.plain, .Mn) (.node (.node .leaf 43015 43018 (.plain, .Lo) .leaf) 43019 43019 (.plain, .Mn) .leaf))) 43020 43042 (.plain, .Lo) (.node (.node (.node (.node .leaf 43043 43044 (.plain, .Mc) .leaf) 43045 43046 (.plain, .Mn) .leaf) 43047 43047 (.plain, .Mc) (.node (.node .leaf 43048 43051 (.plain, .So) .leaf) 43052 43052 (.plain, .Mn) .leaf)) 43056 43061 (.plain, .No) (.node (.node (.node .leaf 43062 43063 (.plain, .So) .leaf) 43064 43064 (.plain, .Sc) .leaf) 43065 43065 (.plain, .So) (.node (.node .leaf 43072 43123 (.plain, .Lo) .leaf) 43124 43127 (.plain, .Po) .leaf)))) 43136 43137 (.plain, .Mc) (.node (.node (.node (.node (.node .leaf 43138 43187 (.plain, .Lo) .leaf) 43188 43203 (.plain, .Mc) (.node .leaf 43204 43205 (.plain, .Mn) .leaf)) 43214 43215 (.plain, .Po) (.node (.node .leaf 43216 43225 (.plain, .Nd) .leaf) 43232 43249 (.plain, .Mn) .leaf)) 43250 43255 (.plain, .Lo) (.node (.node (.node .leaf 43256 43258 (.plain, .Po) .leaf) 43259 43259 (.plain, .Lo) .leaf) 43260 43260 (.plain, .Po) (.node (.node .leaf 43261 43262 (.plain, .Lo) .leaf) 43263 43263 (.plain, .Mn) .leaf))) 43264 43273 (.plain, .Nd) (.node (.node (.node (.node .leaf 43274 43301 (.plain, .Lo) .leaf) 43302 43309 (.plain, .Mn) .leaf) 43310 43311 (.plain, .Po) (.node (.node .leaf 43312 43334 (.plain, .Lo) .leaf) 43335 43345 (.plain, .Mn) .leaf)) 43346 43347 (.plain, .Mc) (.node (.node (.node .leaf 43359 43359 (.plain, .Po) .leaf) 43360 43388 (.plain, .Lo) .leaf) 43392 43394 (.plain, .Mn) (.node (.node .leaf 43395 43395 (.plain, .Mc) .leaf) 43396 43442 (.plain, .Lo) .leaf))))))

def categoryTable23 : RTree (Kind × Cat) := (.node (.node (.node (.node (.node (.node (.node .leaf 43444 43445 (.plain, .Mc) .leaf) 43446 43449 (.plain, .Mn) (.node .leaf 43450 43451 (.plain, .Mc) .leaf)) 43452 43453 (.plain, .Mn) (.node (.node .leaf 43454 43456 (.plain, .Mc) .leaf) 43457 43469 (.plain, .Po) .leaf)) 43471 43471 (.plain, .Lm) (.node (.node (.node .leaf 43472 43481 (.plain, .Nd) .leaf) 43486 43487 (.plain, .Po) .leaf) 43488 43492 (.plain, .Lo) (.node (.node .leaf 43493 43493 (.plain, .Mn) .leaf) 43494 43494 (.plain, .Lm) .leaf))) 43495 43503 (.plain, .Lo) (.node (.node (.node (.node .leaf 43504 43513 (.plain, .Nd) .leaf) 43514 43518 (.plain, .Lo) .leaf) 43520 43560 (.plain, .Lo) (.node (.node .leaf 43561 43566 (.plain, .Mn) .leaf) 43567 43568 (.plain, .Mc) .leaf)) 43569 43570 (.plain, .Mn) (.node (.node (.node .leaf 43571 43572 (.plain, .Mc) .leaf) 43573 43574 (.plain, .Mn) .leaf) 43584 43586 (.plain, .Lo) (.node (.node .leaf 43587 43587 (.plain, .Mn) .leaf) 43588 43595 (.plain, .Lo) .leaf)))) 43596 43596 (.plain, .Mn) (.node (.node (.node (.node (.node .leaf 43597 43597 (.plain, .Mc) .leaf) 43600 43609 (.plain, .Nd) (.node .leaf 43612 43615 (.plain, .Po) .leaf)) 43616 43631 (.plain, .Lo) (.node (.node .leaf 43632 43632 (.plain, .Lm) .leaf) 43633 43638 (.plain, .Lo) .leaf)) 43639 43641 (.plain, .So) (.node (.node (.node .leaf 43642 43642 (.plain, .Lo) .leaf) 43643 43643 (.plain, .Mc) .leaf) 43644 43644 (.plain, .Mn) (.node (.node .leaf 43645 43645 (.plain, .Mc) .leaf) 43646 43695 (.plain, .Lo) .leaf))) 43696 43696 (.plain, .Mn) (.node (.node (.node (.node .leaf 43697 43697 (.plain, .Lo) .leaf) 43698 43700 (.plain, .Mn) .leaf) 43701 43702 (.plain, .Lo) (.node (.node .leaf 43703 43704 (.plain, .Mn) .leaf) 43705 43709 (.plain, .Lo) .leaf)) 43710 43711 (.plain, .Mn) (.node (.node (.node .leaf 43712 43712 (.plain, .Lo) .leaf) 43713 43713 (.plain, .Mn) .leaf) 43714 43714 (.plain, .Lo) (.node (.node .leaf 43739 43740 (.plain, .Lo) .leaf) 43741 43741 (.plain, .Lm) .leaf))))) 43742 43743 (.plain, .Po) (.node (.node (.node (.node (.node (.node .leaf 43744 43754 (.plain, .Lo) .leaf) 43755 43755 (.plain, .Mc) (.node .leaf 43756 43757 (.plain, .Mn) .leaf)) 43758 43759 (.plain, .Mc) (.node (.node .leaf 43760 43761 (.plain, .Po) .leaf) 43762 43762 (.plain, .Lo) .leaf)) 43763 43764 (.plain, .Lm) (.node (.node (.node .leaf 43765 43765 (.plain, .Mc) .leaf) 43766 43766 (.plain, .Mn) .leaf) 43777 43782 (.plain, .Lo) (.node (.node .leaf 43785 43790 (.plain, .Lo) .leaf) 43793 43798 (.plain, .Lo) .leaf))) 43808 43814 (.plain, .Lo) (.node (.node (.node (.node .leaf 43816 43822 (.plain, .Lo) .leaf) 43824 43866 (.plain, .Ll) .leaf) 43867 43867 (.plain, .Sk) (.node (.node .leaf 43868 43871 (.plain, .Lm) .leaf) 43872 43880 (.plain, .Ll) .leaf)) 43881 43881 (.plain, .Lm) (.node (.node (.node .leaf 43882 43883 (.plain, .Sk) .leaf) 43888 43967 (.plain, .Ll) .leaf) 43968 44002 (.plain, .Lo) (.node (.node .leaf 44003 44004 (.plain, .Mc) .leaf) 44005 44005 (.plain, .Mn) .leaf)))) 44006 44007 (.plain, .Mc) (.node (.node (.node (.node (.node .leaf 44008 44008 (.plain, .Mn) .leaf) 44009 44010 (.plain, .Mc) (.node .leaf 44011 44011 (.plain, .Po) .leaf)) 44012 44012 (.plain, .Mc) (.node (.node .leaf 44013 44013 (.plain, .Mn) .leaf) 44016 44025 (.plain, .Nd) .leaf)) 44032 44032 (.first, .Lo) (.node (.node (.node .leaf 55203 55203 (.last, .Lo) .leaf) 55216 55238 (.plain, .Lo) .leaf) 55243 55291 (.plain, .Lo) (.node (.node .leaf 55296 55296 (.first, .Cs) .leaf) 56191 56191 (.last, .Cs) .leaf))) 56192 56192 (.first, .Cs) (.node (.node (.node (.node .leaf 56319 56319 (.last, .Cs) .leaf) 56320 56320 (.first, .Cs) .leaf) 57343 57343 (.last, .Cs) (.node (.node .leaf 57344 57344 (.first, .Co) .leaf) 63743 63743 (.last, .Co) .leaf)) 63744 64109 (.plain, .Lo) (.node (.node (.node .leaf 64112 64217 (.plain, .Lo) .leaf) 64256 64262 (.plain, .Ll) .leaf) 64275 64279 (.plain, .Ll) (.node (.node .leaf 64285 64285 (.plain, .Lo) .leaf) 64286 64286 (.plain, .Mn) .leaf))))))

def categoryTable24 : RTree (Kind × Cat) := (.node (.node (.node (.node (.node (.node (.node .leaf 64297 64297 (.plain, .Sm) .leaf) 64298 64310 (.plain, .Lo) (.node .leaf 64312 64316 (.plain, .Lo) .leaf)) 64318 64318 (.plain, .Lo) (.node (.node .leaf 64320 64321 (.plain, .Lo) .leaf) 64323 64324 (.plain, .Lo) .leaf)) 64326 64433 (.plain, .Lo) (.node (.node (.node .leaf 64434 64449 (.plain, .Sk) .leaf) 64467 64829 (.plain, .Lo) .leaf) 64830 64830 (.plain, .Pe) (.node (.node .leaf 64831 64831 (.plain, .Ps) .leaf) 64848 64911 (.plain, .Lo) .leaf))) 64914 64967 (.plain, .Lo) (.node (.node (.node (.node .leaf 65008 65019 (.plain, .Lo) .leaf) 65020 65020 (.plain, .Sc) (.node .leaf 65021 65021 (.plain, .So) .leaf)) 65024 65039 (.plain, .Mn) (.node (.node .leaf 65040 65046 (.plain, .Po) .leaf) 65047 65047 (.plain, .Ps) .leaf)) 65048 65048 (.plain, .Pe) (.node (.node (.node .leaf 65049 65049 (.plain, .Po) .leaf) 65056 65071 (.plain, .Mn) .leaf) 65072 65072 (.plain, .Po) (.node (.node .leaf 65073 65074 (.plain, .Pd) .leaf) 65075 65076 (.plain, .Pc) .leaf)))) 65077 65077 (.plain, .Ps) (.node (.node (.node (.node (.node .leaf 65078 65078 (.plain, .Pe) .leaf) 65079 65079 (.plain, .Ps) (.node .leaf 65080 65080 (.plain, .Pe) .leaf)) 65081 65081 (.plain, .Ps) (.node (.node .leaf 65082 65082 (.plain, .Pe) .leaf) 65083 65083 (.plain, .Ps) .leaf)) 65084 65084 (.plain, .Pe) (.node (.node (.node .leaf 65085 65085 (.plain, .Ps) .leaf) 65086 65086 (.plain, .Pe) .leaf) 65087 65087 (.plain, .Ps) (.node (.node .leaf 65088 65088 (.plain, .Pe) .leaf) 65089 65089 (.plain, .Ps) .leaf))) 65090 65090 (.plain, .Pe) (.node (.node (.node (.node .leaf 65091 65091 (.plain, .Ps) .leaf) 65092 65092 (.plain, .Pe) .leaf) 65093 65094 (.plain, .Po) (.node (.node .leaf 65095 65095 (.plain, .Ps) .leaf) 65096 65096 (.plain, .Pe) .leaf)) 65097 65100 (.plain, .Po) (.node (.node (.node .leaf 65101 65103 (.plain, .Pc) .leaf) 65104 65106 (.plain, .Po) .leaf) 65108 65111 (.plain, .Po) (.node (.node .leaf 65112 65112 (.plain, .Pd) .leaf) 65113 65113 (.plain, .Ps) .leaf))))) 65114 65114 (.plain, .Pe) (.node (.node (.node (.node (.node (.node .leaf 65115 65115 (.plain, .Ps) .leaf) 65116 65116 (.plain, .Pe) (.node .leaf 65117 65117 (.plain, .Ps) .leaf)) 65118 65118 (.plain, .Pe) (.node (.node .leaf 65119 65121 (.plain, .Po) .leaf) 65122 65122 (.plain, .Sm) .leaf)) 65123 65123 (.plain, .Pd) (.node (.node (.node .leaf 65124 65126 (.plain, .Sm) .leaf) 65128 65128 (.plain, .Po) .leaf) 65129 65129 (.plain, .Sc) (.node (.node .leaf 65130 65131 (.plain, .Po) .leaf) 65136 65140 (.plain, .Lo) .leaf))) 65142 65276 (.plain, .Lo) (.node (.node (.node (.node .leaf 65279 65279 (.plain, .Cf) .leaf) 65281 65283 (.plain, .Po) .leaf) 65284 65284 (.plain, .Sc) (.node (.node .leaf 65285 65287 (.plain, .Po) .leaf) 65288 65288 (.plain, .Ps) .leaf)) 65289 65289 (.plain, .Pe) (.node (.node (.node .leaf 65290 65290 (.plain, .Po) .leaf) 65291 65291 (.plain, .Sm) .leaf) 65292 65292 (.plain, .Po) (.node (.node .leaf 65293 65293 (.plain, .Pd) .leaf) 65294 65295 (.plain, .Po) .leaf)))) 65296 65305 (.plain, .Nd) (.node (.node (.node (.node (.node .leaf 65306 65307 (.plain, .Po) .leaf) 65308 65310 (.plain, .Sm) (.node .leaf 65311 65312 (.plain, .Po) .leaf)) 65313 65338 (.plain, .Lu) (.node (.node .leaf 65339 65339 (.plain, .Ps) .leaf) 65340 65340 (.plain, .Po) .leaf)) 65341 65341 (.plain, .Pe) (.node (.node (.node .leaf 65342 65342 (.plain, .Sk) .leaf) 65343 65343 (.plain, .Pc) .leaf) 65344 65344 (.plain, .Sk) (.node (.node .leaf 65345 65370 (.plain, .Ll) .leaf) 65371 65371 (.plain, .Ps) .leaf))) 65372 65372 (.plain, .Sm) (.node (.node (.node (.node .leaf 65373 65373 (.plain, .Pe) .leaf) 65374 65374 (.plain, .Sm) .leaf) 65375 65375 (.plain, .Ps) (.node (.node .leaf 65376 65376 (.plain, .Pe) .leaf) 65377 65377 (.plain, .Po) .leaf)) 65378 65378 (.plain, .Ps) (.node (.node (.node .leaf 65379 65379 (.plain, .Pe) .leaf) 65380 65381 (.plain, .Po) .leaf) 65382 65391 (.plain, .Lo) (.node (.node .leaf 65392 65392 (.plain, .Lm) .leaf) 65393 65437 (.plain, .Lo) .leaf))))))

def categoryTable25 : RTree (Kind × Cat) := (.node (.node (.node (.node (.node (.node (.node .leaf 65440 65470 (.plain, .Lo) .leaf) 65474 65479 (.plain, .Lo) (.node .leaf 65482 65487 (.plain, .Lo) .leaf)) 65490 65495 (.plain, .Lo) (.node (.node .leaf 65498 65500 (.plain, .Lo) .leaf) 65504 65505 (.plain, .Sc) .leaf)) 65506 65506 (.plain, .Sm) (.node (.node (.node .leaf 65507 65507 (.plain, .Sk) .leaf) 65508 65508 (.plain, .So) .leaf) 65509 65510 (.plain, .Sc) (.node (.node .leaf 65512 65512 (.plain, .So) .leaf) 65513 65516 (.plain, .Sm) .leaf))) 65517 65518 (.plain, .So) (.node (.node (.node (.node .leaf 65529 65531 (.plain, .Cf) .leaf) 65532 65533 (.plain, .So) .leaf) 65536 65547 (.plain, .Lo) (.node (.node .leaf 65549 65574 (.plain, .Lo) .leaf) 65576 65594 (.plain, .Lo) .leaf)) 65596 65597 (.plain, .Lo) (.node (.node (.node .leaf 65599 65613 (.plain, .Lo) .leaf) 65616 65629 (.plain, .Lo) .leaf) 65664 65786 (.plain, .Lo) (.node (.node .leaf 65792 65794 (.plain, .Po) .leaf) 65799 65843 (.plain, .No) .leaf)))) 65847 65855 (.plain, .So) (.node (.node (.node (.node (.node .leaf 65856 65908 (.plain, .Nl) .leaf) 65909 65912 (.plain, .No) (.node .leaf 65913 65929 (.plain, .So) .leaf)) 65930 65931 (.plain, .No) (.node (.node .leaf 65932 65934 (.plain, .So) .leaf) 65936 65948 (.plain, .So) .leaf)) 65952 65952 (.plain, .So) (.node (.node (.node .leaf 66000 66044 (.plain, .So) .leaf) 66045 66045 (.plain, .Mn) .leaf) 66176 66204 (.plain, .Lo) (.node (.node .leaf 66208 66256 (.plain, .Lo) .leaf) 66272 66272 (.plain, .Mn) .leaf))) 66273 66299 (.plain, .No) (.node (.node (.node (.node .leaf 66304 66335 (.plain, .Lo) .leaf) 66336 66339 (.plain, .No) .leaf) 66349 66368 (.plain, .Lo) (.node (.node .leaf 66369 66369 (.plain, .Nl) .leaf) 66370 66377 (.plain, .Lo) .leaf)) 66378 66378 (.plain, .Nl) (.node (.node (.node .leaf 66384 66421 (.plain, .Lo) .leaf) 66422 66426 (.plain, .Mn) .leaf) 66432 66461 (.plain, .Lo) (.node (.node .leaf 66463 66463 (.plain, .Po) .leaf) 66464 66499 (.plain, .Lo) .leaf))))) 66504 66511 (.plain, .Lo) (.node (.node (.node (.node (.node (.node .leaf 66512 66512 (.plain, .Po) .leaf) 66513 66517 (.plain, .Nl) (.node .leaf 66560 66599 (.plain, .Lu) .leaf)) 66600 66639 (.plain, .Ll) (.node (.node .leaf 66640 66717 (.plain, .Lo) .leaf) 66720 66729 (.plain, .Nd) .leaf)) 66736 66771 (.plain, .Lu) (.node (.node (.node .leaf 66776 66811 (.plain, .Ll) .leaf) 66816 66855 (.plain, .Lo) .leaf) 66864 66915 (.plain, .Lo) (.node (.node .leaf 66927 66927 (.plain, .Po) .leaf) 67072 67382 (.plain, .Lo) .leaf))) 67392 67413 (.plain, .Lo) (.node (.node (.node (.node .leaf 67424 67431 (.plain, .Lo) .leaf) 67584 67589 (.plain, .Lo) .leaf) 67592 67592 (.plain, .Lo) (.node (.node .leaf 67594 67637 (.plain, .Lo) .leaf) 67639 67640 (.plain, .Lo) .leaf)) 67644 67644 (.plain, .Lo) (.node (.node (.node .leaf 67647 67669 (.plain, .Lo) .leaf) 67671 67671 (.plain, .Po) .leaf) 67672 67679 (.plain, .No) (.node (.node .leaf 67680 67702 (.plain, .Lo) .leaf) 67703 67704 (.plain, .So) .leaf)))) 67705 67711 (.plain, .No) (.node (.node (.node (.node (.node .leaf 67712 67742 (.plain, .Lo) .leaf) 67751 67759 (.plain, .No) (.node .leaf 67808 67826 (.plain, .Lo) .leaf)) 67828 67829 (.plain, .Lo) (.node (.node .leaf 67835 67839 (.plain, .No) .leaf) 67840 67861 (.plain, .Lo) .leaf)) 67862 67867 (.plain, .No) (.node (.node (.node .leaf 67871 67871 (.plain, .Po) .leaf) 67872 67897 (.plain, .Lo) .leaf) 67903 67903 (.plain, .Po) (.node (.node .leaf 67968 68023 (.plain, .Lo) .leaf) 68028 68029 (.plain, .No) .leaf))) 68030 68031 (.plain, .Lo) (.node (.node (.node (.node .leaf 68032 68047 (.plain, .No) .leaf) 68050 68095 (.plain, .No) .leaf) 68096 68096 (.plain, .Lo) (.node (.node .leaf 68097 68099 (.plain, .Mn) .leaf) 68101 68102 (.plain, .Mn) .leaf)) 68108 68111 (.plain, .Mn) (.node (.node (.node .leaf 68112 68115 (.plain, .Lo) .leaf) 68117 68119 (.plain, .Lo) .leaf) 68121 68149 (.plain, .Lo) (.node (.node .leaf 68152 68154 (.plain, .Mn) .leaf) 68159 68159 (.plain, .Mn) .leaf))))))

def categoryTable26 : RTree (Kind × Cat) := (.node (.node (.node (.node (.node (.node (.node .leaf 68176 68184 (.plain, .Po) .leaf) 68192 68220 (.plain, .Lo) (.node .leaf 68221 68222 (.plain, .No) .leaf)) 68223 68223 (.plain, .Po) (.node (.node .leaf 68224 68252 (.plain, .Lo) .leaf) 68253 68255 (.plain, .No) .leaf)) 68288 68295 (.plain, .Lo) (.node (.node (.node .leaf 68296 68296 (.plain, .So) .leaf) 68297 68324 (.plain, .Lo) .leaf) 68325 68326 (.plain, .Mn) (.node (.node .leaf 68331 68335 (.plain, .No) .leaf) 68336 68342 (.plain, .Po) .leaf))) 68352 68405 (.plain, .Lo) (.node (.node (.node (.node .leaf 68409 68415 (.plain, .Po) .leaf) 68416 68437 (.plain, .Lo) (.node .leaf 68440 68447 (.plain, .No) .leaf)) 68448 68466 (.plain, .Lo) (.node (.node .leaf 68472 68479 (.plain, .No) .leaf) 68480 68497 (.plain, .Lo) .leaf)) 68505 68508 (.plain, .Po) (.node (.node (.node .leaf 68521 68527 (.plain, .No) .leaf) 68608 68680 (.plain, .Lo) .leaf) 68736 68786 (.plain, .Lu) (.node (.node .leaf 68800 68850 (.plain, .Ll) .leaf) 68858 68863 (.plain, .No) .leaf)))) 68864 68899 (.plain, .Lo) (.node (.node (.node (.node (.node .leaf 68900 68903 (.plain, .Mn) .leaf) 68912 68921 (.plain, .Nd) (.node .leaf 69216 69246 (.plain, .No) .leaf)) 69248 69289 (.plain, .Lo) (.node (.node .leaf 69291 69292 (.plain, .Mn) .leaf) 69293 69293 (.plain, .Pd) .leaf)) 69296 69297 (.plain, .Lo) (.node (.node (.node .leaf 69376 69404 (.plain, .Lo) .leaf) 69405 69414 (.plain, .No) .leaf) 69415 69415 (.plain, .Lo) (.node (.node .leaf 69424 69445 (.plain, .Lo) .leaf) 69446 69456 (.plain, .Mn) .leaf))) 69457 69460 (.plain, .No) (.node (.node (.node (.node .leaf 69461 69465 (.plain, .Po) .leaf) 69552 69572 (.plain, .Lo) .leaf) 69573 69579 (.plain, .No) (.node (.node .leaf 69600 69622 (.plain, .Lo) .leaf) 69632 69632 (.plain, .Mc) .leaf)) 69633 69633 (.plain, .Mn) (.node (.node (.node .leaf 69634 69634 (.plain, .Mc) .leaf) 69635 69687 (.plain, .Lo) .leaf) 69688 69702 (.plain, .Mn) (.node (.node .leaf 69703 69709 (.plain, .Po) .leaf) 69714 69733 (.plain, .No) .leaf))))) 69734 69743 (.plain, .Nd) (.node (.node (.node (.node (.node (.node .leaf 69759 69761 (.plain, .Mn) .leaf) 69762 69762 (.plain, .Mc) (.node .leaf 69763 69807 (.plain, .Lo) .leaf)) 69808 69810 (.plain, .Mc) (.node (.node .leaf 69811 69814 (.plain, .Mn) .leaf) 69815 69816 (.plain, .Mc) .leaf)) 69817 69818 (.plain, .Mn) (.node (.node (.node .leaf 69819 69820 (.plain, .Po) .leaf) 69821 69821 (.plain, .Cf) .leaf) 69822 69825 (.plain, .Po) (.node (.node .leaf 69837 69837 (.plain, .Cf) .leaf) 69840 69864 (.plain, .Lo) .leaf))) 69872 69881 (.plain, .Nd) (.node (.node (.node (.node .leaf 69888 69890 (.plain, .Mn) .leaf) 69891 69926 (.plain, .Lo) .leaf) 69927 69931 (.plain, .Mn) (.node (.node .leaf 69932 69932 (.plain, .Mc) .leaf) 69933 69940 (.plain, .Mn) .leaf)) 69942 69951 (.plain, .Nd) (.node (.node (.node .leaf 69952 69955 (.plain, .Po) .leaf) 69956 69956 (.plain, .Lo) .leaf) 69957 69958 (.plain, .Mc) (.node (.node .leaf 69959 69959 (.plain, .Lo) .leaf) 69968 70002 (.plain, .Lo) .leaf)))) 70003 70003 (.plain, .Mn) (.node (.node (.node (.node (.node .leaf 70004 70005 (.plain, .Po) .leaf) 70006 70006 (.plain, .Lo) (.node .leaf 70016 70017 (.plain, .Mn) .leaf)) 70018 70018 (.plain, .Mc) (.node (.node .leaf 70019 70066 (.plain, .Lo) .leaf) 70067 70069 (.plain, .Mc) .leaf)) 70070 70078 (.plain, .Mn) (.node (.node (.node .leaf 70079 70080 (.plain, .Mc) .leaf) 70081 70084 (.plain, .Lo) .leaf) 70085 70088 (.plain, .Po) (.node (.node .leaf 70089 70092 (.plain, .Mn) .leaf) 70093 70093 (.plain, .Po) .leaf))) 70094 70094 (.plain, .Mc) (.node (.node (.node (.node .leaf 70095 70095 (.plain, .Mn) .leaf) 70096 70105 (.plain, .Nd) .leaf) 70106 70106 (.plain, .Lo) (.node (.node .leaf 70107 70107 (.plain, .Po) .leaf) 70108 70108 (.plain, .Lo) .leaf)) 70109 70111 (.plain, .Po) (.node (.node (.node .leaf 70113 70132 (.plain, .No) .leaf) 70144 70161 (.plain, .Lo) .leaf) 70163 70187 (.plain, .Lo) (.node (.node .leaf 70188 70190 (.plain, .Mc) .leaf) 70191 70193 (.plain, .Mn) .leaf))))))

def categoryTable27 : RTree (Kind × Cat) := (.node (.node (.node (.node (.node (.node (.node .leaf 70196 70196 (.plain, .Mn) .leaf) 70197 70197 (.plain, .Mc) (.node .leaf 70198 70199 (.plain, .Mn) .leaf)) 70200 70205 (.plain, .Po) (.node (.node .leaf 70206 70206 (.plain, .Mn) .leaf) 70272 70278 (.plain, .Lo) .leaf)) 70280 70280 (.plain, .Lo) (.node (.node (.node .leaf 70282 70285 (.plain, .Lo) .leaf) 70287 70301 (.plain, .Lo) .leaf) 70303 70312 (.plain, .Lo) (.node (.node .leaf 70313 70313 (.plain, .Po) .leaf) 70320 70366 (.plain, .Lo) .leaf))) 70367 70367 (.plain, .Mn) (.node (.node (.node (.node .leaf 70368 70370 (.plain, .Mc) .leaf) 70371 70378 (.plain, .Mn) .leaf) 70384 70393 (.plain, .Nd) (.node (.node .leaf 70400 70401 (.plain, .Mn) .leaf) 70402 70403 (.plain, .Mc) .leaf)) 70405 70412 (.plain, .Lo) (.node (.node (.node .leaf 70415 70416 (.plain, .Lo) .leaf) 70419 70440 (.plain, .Lo) .leaf) 70442 70448 (.plain, .Lo) (.node (.node .leaf 70450 70451 (.plain, .Lo) .leaf) 70453 70457 (.plain, .Lo) .leaf)))) 70459 70460 (.plain, .Mn) (.node (.node (.node (.node (.node .leaf 70461 70461 (.plain, .Lo) .leaf) 70462 70463 (.plain, .Mc) (.node .leaf 70464 70464 (.plain, .Mn) .leaf)) 70465 70468 (.plain, .Mc) (.node (.node .leaf 70471 70472 (.plain, .Mc) .leaf) 70475 70477 (.plain, .Mc) .leaf)) 70480 70480 (.plain, .Lo) (.node (.node (.node .leaf 70487 70487 (.plain, .Mc) .leaf) 70493 70497 (.plain, .Lo) .leaf) 70498 70499 (.plain, .Mc) (.node (.node .leaf 70502 70508 (.plain, .Mn) .leaf) 70512 70516 (.plain, .Mn) .leaf))) 70656 70708 (.plain, .Lo) (.node (.node (.node (.node .leaf 70709 70711 (.plain, .Mc) .leaf) 70712 70719 (.plain, .Mn) .leaf) 70720 70721 (.plain, .Mc) (.node (.node .leaf 70722 70724 (.plain, .Mn) .leaf) 70725 70725 (.plain, .Mc) .leaf)) 70726 70726 (.plain, .Mn) (.node (.node (.node .leaf 70727 70730 (.plain, .Lo) .leaf) 70731 70735 (.plain, .Po) .leaf) 70736 70745 (.plain, .Nd) (.node (.node .leaf 70746 70747 (.plain, .Po) .leaf) 70749 70749 (.plain, .Po) .leaf))))) 70750 70750 (.plain, .Mn) (.node (.node (.node (.node (.node (.node .leaf 70751 70753 (.plain, .Lo) .leaf) 70784 70831 (.plain, .Lo) (.node .leaf 70832 70834 (.plain, .Mc) .leaf)) 70835 70840 (.plain, .Mn) (.node (.node .leaf 70841 70841 (.plain, .Mc) .leaf) 70842 70842 (.plain, .Mn) .leaf)) 70843 70846 (.plain, .Mc) (.node (.node (.node .leaf 70847 70848 (.plain, .Mn) .leaf) 70849 70849 (.plain, .Mc) .leaf) 70850 70851 (.plain, .Mn) (.node (.node .leaf 70852 70853 (.plain, .Lo) .leaf) 70854 70854 (.plain, .Po) .leaf))) 70855 70855 (.plain, .Lo) (.node (.node (.node (.node .leaf 70864 70873 (.plain, .Nd) .leaf) 71040 71086 (.plain, .Lo) .leaf) 71087 71089 (.plain, .Mc) (.node (.node .leaf 71090 71093 (.plain, .Mn) .leaf) 71096 71099 (.plain, .Mc) .leaf)) 71100 71101 (.plain, .Mn) (.node (.node (.node .leaf 71102 71102 (.plain, .Mc) .leaf) 71103 71104 (.plain, .Mn) .leaf) 71105 71127 (.plain, .Po) (.node (.node .leaf 71128 71131 (.plain, .Lo) .leaf) 71132 71133 (.plain, .Mn) .leaf)))) 71168 71215 (.plain, .Lo) (.node (.node (.node (.node (.node .leaf 71216 71218 (.plain, .Mc) .leaf) 71219 71226 (.plain, .Mn) (.node .leaf 71227 71228 (.plain, .Mc) .leaf)) 71229 71229 (.plain, .Mn) (.node (.node .leaf 71230 71230 (.plain, .Mc) .leaf) 71231 71232 (.plain, .Mn) .leaf)) 71233 71235 (.plain, .Po) (.node (.node (.node .leaf 71236 71236 (.plain, .Lo) .leaf) 71248 71257 (.plain, .Nd) .leaf) 71264 71276 (.plain, .Po) (.node (.node .leaf 71296 71338 (.plain, .Lo) .leaf) 71339 71339 (.plain, .Mn) .leaf))) 71340 71340 (.plain, .Mc) (.node (.node (.node (.node .leaf 71341 71341 (.plain, .Mn) .leaf) 71342 71343 (.plain, .Mc) .leaf) 71344 71349 (.plain, .Mn) (.node (.node .leaf 71350 71350 (.plain, .Mc) .leaf) 71351 71351 (.plain, .Mn) .leaf)) 71352 71352 (.plain, .Lo) (.node (.node (.node .leaf 71360 71369 (.plain, .Nd) .leaf) 71424 71450 (.plain, .Lo) .leaf) 71453 71455 (.plain, .Mn) (.node (.node .leaf 71456 71457 (.plain, .Mc) .leaf) 71458 71461 (.plain, .Mn) .leaf))))))

def categoryTable28 : RTree (Kind × Cat) := (.node (.node (.node (.node (.node (.node (.node .leaf 71463 71467 (.plain, .Mn) .leaf) 71472 71481 (.plain, .Nd) (.node .leaf 71482 71483 (.plain, .No) .leaf)) 71484 71486 (.plain, .Po) (.node (.node .leaf 71487 71487 (.plain, .So) .leaf) 71680 71723 (.plain, .Lo) .leaf)) 71724 71726 (.plain, .Mc) (.node (.node (.node .leaf 71727 71735 (.plain, .Mn) .leaf) 71736 71736 (.plain, .Mc) .leaf) 71737 71738 (.plain, .Mn) (.node (.node .leaf 71739 71739 (.plain, .Po) .leaf) 71840 71871 (.plain, .Lu) .leaf))) 71872 71903 (.plain, .Ll) (.node (.node (.node (.node .leaf 71904 71913 (.plain, .Nd) .leaf) 71914 71922 (.plain, .No) (.node .leaf 71935 71942 (.plain, .Lo) .leaf)) 71945 71945 (.plain, .Lo) (.node (.node .leaf 71948 71955 (.plain, .Lo) .leaf) 71957 71958 (.plain, .Lo) .leaf)) 71960 71983 (.plain, .Lo) (.node (.node (.node .leaf 71984 71989 (.plain, .Mc) .leaf) 71991 71992 (.plain, .Mc) .leaf) 71995 71996 (.plain, .Mn) (.node (.node .leaf 71997 71997 (.plain, .Mc) .leaf) 71998 71998 (.plain, .Mn) .leaf)))) 71999 71999 (.plain, .Lo) (.node (.node (.node (.node (.node .leaf 72000 72000 (.plain, .Mc) .leaf) 72001 72001 (.plain, .Lo) (.node .leaf 72002 72002 (.plain, .Mc) .leaf)) 72003 72003 (.plain, .Mn) (.node (.node .leaf 72004 72006 (.plain, .Po) .leaf) 72016 72025 (.plain, .Nd) .leaf)) 72096 72103 (.plain, .Lo) (.node (.node (.node .leaf 72106 72144 (.plain, .Lo) .leaf) 72145 72147 (.plain, .Mc) .leaf) 72148 72151 (.plain, .Mn) (.node (.node .leaf 72154 72155 (.plain, .Mn) .leaf) 72156 72159 (.plain, .Mc) .leaf))) 72160 72160 (.plain, .Mn) (.node (.node (.node (.node .leaf 72161 72161 (.plain, .Lo) .leaf) 72162 72162 (.plain, .Po) .leaf) 72163 72163 (.plain, .Lo) (.node (.node .leaf 72164 72164 (.plain, .Mc) .leaf) 72192 72192 (.plain, .Lo) .leaf)) 72193 72202 (.plain, .Mn) (.node (.node (.node .leaf 72203 72242 (.plain, .Lo) .leaf) 72243 72248 (.plain, .Mn) .leaf) 72249 72249 (.plain, .Mc) (.node (.node .leaf 72250 72250 (.plain, .Lo) .leaf) 72251 72254 (.plain, .Mn) .leaf))))) 72255 72262 (.plain, .Po) (.node (.node (.node (.node (.node (.node .leaf 72263 72263 (.plain, .Mn) .leaf) 72272 72272 (.plain, .Lo) (.node .leaf 72273 72278 (.plain, .Mn) .leaf)) 72279 72280 (.plain, .Mc) (.node (.node .leaf 72281 72283 (.plain, .Mn) .leaf) 72284 72329 (.plain, .Lo) .leaf)) 72330 72342 (.plain, .Mn) (.node (.node (.node .leaf 72343 72343 (.plain, .Mc) .leaf) 72344 72345 (.plain, .Mn) .leaf) 72346 72348 (.plain, .Po) (.node (.node .leaf 72349 72349 (.plain, .Lo) .leaf) 72350 72354 (.plain, .Po) .leaf))) 72384 72440 (.plain, .Lo) (.node (.node (.node (.node .leaf 72704 72712 (.plain, .Lo) .leaf) 72714 72750 (.plain, .Lo) .leaf) 72751 72751 (.plain, .Mc) (.node (.node .leaf 72752 72758 (.plain, .Mn) .leaf) 72760 72765 (.plain, .Mn) .leaf)) 72766 72766 (.plain, .Mc) (.node (.node (.node .leaf 72767 72767 (.plain, .Mn) .leaf) 72768 72768 (.plain, .Lo) .leaf) 72769 72773 (.plain, .Po) (.node (.node .leaf 72784 72793 (.plain, .Nd) .leaf) 72794 72812 (.plain, .No) .leaf)))) 72816 72817 (.plain, .Po) (.node (.node (.node (.node (.node .leaf 72818 72847 (.plain, .Lo) .leaf) 72850 72871 (.plain, .Mn) (.node .leaf 72873 72873 (.plain, .Mc) .leaf)) 72874 72880 (.plain, .Mn) (.node (.node .leaf 72881 72881 (.plain, .Mc) .leaf) 72882 72883 (.plain, .Mn) .leaf)) 72884 72884 (.plain, .Mc) (.node (.node (.node .leaf 72885 72886 (.plain, .Mn) .leaf) 72960 72966 (.plain, .Lo) .leaf) 72968 72969 (.plain, .Lo) (.node (.node .leaf 72971 73008 (.plain, .Lo) .leaf) 73009 73014 (.plain, .Mn) .leaf))) 73018 73018 (.plain, .Mn) (.node (.node (.node (.node .leaf 73020 73021 (.plain, .Mn) .leaf) 73023 73029 (.plain, .Mn) .leaf) 73030 73030 (.plain, .Lo) (.node (.node .leaf 73031 73031 (.plain, .Mn) .leaf) 73040 73049 (.plain, .Nd) .leaf)) 73056 73061 (.plain, .Lo) (.node (.node (.node .leaf 73063 73064 (.plain, .Lo) .leaf) 73066 73097 (.plain, .Lo) .leaf) 73098 73102 (.plain, .Mc) (.node (.node .leaf 73104 73105 (.plain, .Mn) .leaf) 73107 73108 (.plain, .Mc) .leaf))))))

def categoryTable29 : RTree (Kind × Cat) := (.node (.node (.node (.node (.node (.node (.node .leaf 73110 73110 (.plain, .Mc) .leaf) 73111 73111 (.plain, .Mn) (.node .leaf 73112 73112 (.plain, .Lo) .leaf)) 73120 73129 (.plain, .Nd) (.node (.node .leaf 73440 73458 (.plain, .Lo) .leaf) 73459 73460 (.plain, .Mn) .leaf)) 73461 73462 (.plain, .Mc) (.node (.node (.node .leaf 73463 73464 (.plain, .Po) .leaf) 73648 73648 (.plain, .Lo) .leaf) 73664 73684 (.plain, .No) (.node (.node .leaf 73685 73692 (.plain, .So) .leaf) 73693 73696 (.plain, .Sc) .leaf))) 73697 73713 (.plain, .So) (.node (.node (.node (.node .leaf 73727 73727 (.plain, .Po) .leaf) 73728 74649 (.plain, .Lo) .leaf) 74752 74862 (.plain, .Nl) (.node (.node .leaf 74864 74868 (.plain, .Po) .leaf) 74880 75075 (.plain, .Lo) .leaf)) 77824 78894 (.plain, .Lo) (.node (.node (.node .leaf 78896 78904 (.plain, .Cf) .leaf) 82944 83526 (.plain, .Lo) .leaf) 92160 92728 (.plain, .Lo) (.node (.node .leaf 92736 92766 (.plain, .Lo) .leaf) 92768 92777 (.plain, .Nd) .leaf)))) 92782 92783 (.plain, .Po) (.node (.node (.node (.node (.node .leaf 92880 92909 (.plain, .Lo) .leaf) 92912 92916 (.plain, .Mn) (.node .leaf 92917 92917 (.plain, .Po) .leaf)) 92928 92975 (.plain, .Lo) (.node (.node .leaf 92976 92982 (.plain, .Mn) .leaf) 92983 92987 (.plain, .Po) .leaf)) 92988 92991 (.plain, .So) (.node (.node (.node .leaf 92992 92995 (.plain, .Lm) .leaf) 92996 92996 (.plain, .Po) .leaf) 92997 92997 (.plain, .So) (.node (.node .leaf 93008 93017 (.plain, .Nd) .leaf) 93019 93025 (.plain, .No) .leaf))) 93027 93047 (.plain, .Lo) (.node (.node (.node (.node .leaf 93053 93071 (.plain, .Lo) .leaf) 93760 93791 (.plain, .Lu) .leaf) 93792 93823 (.plain, .Ll) (.node (.node .leaf 93824 93846 (.plain, .No) .leaf) 93847 93850 (.plain, .Po) .leaf)) 93952 94026 (.plain, .Lo) (.node (.node (.node .leaf 94031 94031 (.plain, .Mn) .leaf) 94032 94032 (.plain, .Lo) .leaf) 94033 94087 (.plain, .Mc) (.node (.node .leaf 94095 94098 (.plain, .Mn) .leaf) 94099 94111 (.plain, .Lm) .leaf))))) 94176 94177 (.plain, .Lm) (.node (.node (.node (.node (.node (.node .leaf 94178 94178 (.plain, .Po) .leaf) 94179 94179 (.plain, .Lm) (.node .leaf 94180 94180 (.plain, .Mn) .leaf)) 94192 94193 (.plain, .Mc) (.node (.node .leaf 94208 94208 (.first, .Lo) .leaf) 100343 100343 (.last, .Lo) .leaf)) 100352 101589 (.plain, .Lo) (.node (.node (.node .leaf 101632 101632 (.first, .Lo) .leaf) 101640 101640 (.last, .Lo) .leaf) 110592 110878 (.plain, .Lo) (.node (.node .leaf 110928 110930 (.plain, .Lo) .leaf) 110948 110951 (.plain, .Lo) .leaf))) 110960 111355 (.plain, .Lo) (.node (.node (.node (.node .leaf 113664 113770 (.plain, .Lo) .leaf) 113776 113788 (.plain, .Lo) .leaf) 113792 113800 (.plain, .Lo) (.node (.node .leaf 113808 113817 (.plain, .Lo) .leaf) 113820 113820 (.plain, .So) .leaf)) 113821 113822 (.plain, .Mn) (.node (.node (.node .leaf 113823 113823 (.plain, .Po) .leaf) 113824 113827 (.plain, .Cf) .leaf) 118784 119029 (.plain, .So) (.node (.node .leaf 119040 119078 (.plain, .So) .leaf) 119081 119140 (.plain, .So) .leaf)))) 119141 119142 (.plain, .Mc) (.node (.node (.node (.node (.node .leaf 119143 119145 (.plain, .Mn) .leaf) 119146 119148 (.plain, .So) (.node .leaf 119149 119154 (.plain, .Mc) .leaf)) 119155 119162 (.plain, .Cf) (.node (.node .leaf 119163 119170 (.plain, .Mn) .leaf) 119171 119172 (.plain, .So) .leaf)) 119173 119179 (.plain, .Mn) (.node (.node (.node .leaf 119180 119209 (.plain, .So) .leaf) 119210 119213 (.plain, .Mn) .leaf) 119214 119272 (.plain, .So) (.node (.node .leaf 119296 119361 (.plain, .So) .leaf) 119362 119364 (.plain, .Mn) .leaf))) 119365 119365 (.plain, .So) (.node (.node (.node (.node .leaf 119520 119539 (.plain, .No) .leaf) 119552 119638 (.plain, .So) .leaf) 119648 119672 (.plain, .No) (.node (.node .leaf 119808 119833 (.plain, .Lu) .leaf) 119834 119859 (.plain, .Ll) .leaf)) 119860 119885 (.plain, .Lu) (.node (.node (.node .leaf 119886 119892 (.plain, .Ll) .leaf) 119894 119911 (.plain, .Ll) .leaf) 119912 119937 (.plain, .Lu) (.node (.node .leaf 119938 119963 (.plain, .Ll) .leaf) 119964 119964 (.plain, .Lu) .leaf))))))

def categoryTable30 : RTree (Kind × Cat) := (.node (.node (.node (.node (.node (.node (.node .leaf 119970 119970 (.plain, .Lu) .leaf) 119973 119974 (.plain, .Lu) (.node .leaf 119977 119980 (.plain, .Lu) .leaf)) 119982 119989 (.plain, .Lu) (.node (.node .leaf 119990 119993 (.plain, .Ll) .leaf) 119995 119995 (.plain, .Ll) .leaf)) 119997 120003 (.plain, .Ll) (.node (.node (.node .leaf 120005 120015 (.plain, .Ll) .leaf) 120016 120041 (.plain, .Lu) .leaf) 120042 120067 (.plain, .Ll) (.node (.node .leaf 120068 120069 (.plain, .Lu) .leaf) 120071 120074 (.plain, .Lu) .leaf))) 120077 120084 (.plain, .Lu) (.node (.node (.node (.node .leaf 120086 120092 (.plain, .Lu) .leaf) 120094 120119 (.plain, .Ll) (.node .leaf 120120 120121 (.plain, .Lu) .leaf)) 120123 120126 (.plain, .Lu) (.node (.node .leaf 120128 120132 (.plain, .Lu) .leaf) 120134 120134 (.plain, .Lu) .leaf)) 120138 120144 (.plain, .Lu) (.node (.node (.node .leaf 120146 120171 (.plain, .Ll) .leaf) 120172 120197 (.plain, .Lu) .leaf) 120198 120223 (.plain, .Ll) (.node (.node .leaf 120224 120249 (.plain, .Lu) .leaf) 120250 120275 (.plain, .Ll) .leaf)))) 120276 120301 (.plain, .Lu) (.node (.node (.node (.node (.node .leaf 120302 120327 (.plain, .Ll) .leaf) 120328 120353 (.plain, .Lu) (.node .leaf 120354 120379 (.plain, .Ll) .leaf)) 120380 120405 (.plain, .Lu) (.node (.node .leaf 120406 120431 (.plain, .Ll) .leaf) 120432 120457 (.plain, .Lu) .leaf)) 120458 120485 (.plain, .Ll) (.node (.node (.node .leaf 120488 120512 (.plain, .Lu) .leaf) 120513 120513 (.plain, .Sm) .leaf) 120514 120538 (.plain, .Ll) (.node (.node .leaf 120539 120539 (.plain, .Sm) .leaf) 120540 120545 (.plain, .Ll) .leaf))) 120546 120570 (.plain, .Lu) (.node (.node (.node (.node .leaf 120571 120571 (.plain, .Sm) .leaf) 120572 120596 (.plain, .Ll) .leaf) 120597 120597 (.plain, .Sm) (.node (.node .leaf 120598 120603 (.plain, .Ll) .leaf) 120604 120628 (.plain, .Lu) .leaf)) 120629 120629 (.plain, .Sm) (.node (.node (.node .leaf 120630 120654 (.plain, .Ll) .leaf) 120655 120655 (.plain, .Sm) .leaf) 120656 120661 (.plain, .Ll) (.node (.node .leaf 120662 120686 (.plain, .Lu) .leaf) 120687 120687 (.plain, .Sm) .leaf))))) 120688 120712 (.plain, .Ll) (.node (.node (.node (.node (.node (.node .leaf 120713 120713 (.plain, .Sm) .leaf) 120714 120719 (.plain, .Ll) (.node .leaf 120720 120744 (.plain, .Lu) .leaf)) 120745 120745 (.plain, .Sm) (.node (.node .leaf 120746 120770 (.plain, .Ll) .leaf) 120771 120771 (.plain, .Sm) .leaf)) 120772 120777 (.plain, .Ll) (.node (.node (.node .leaf 120778 120778 (.plain, .Lu) .leaf) 120779 120779 (.plain, .Ll) .leaf) 120782 120831 (.plain, .Nd) (.node (.node .leaf 120832 121343 (.plain, .So) .leaf) 121344 121398 (.plain, .Mn) .leaf))) 121399 121402 (.plain, .So) (.node (.node (.node (.node .leaf 121403 121452 (.plain, .Mn) .leaf) 121453 121460 (.plain, .So) .leaf) 121461 121461 (.plain, .Mn) (.node (.node .leaf 121462 121475 (.plain, .So) .leaf) 121476 121476 (.plain, .Mn) .leaf)) 121477 121478 (.plain, .So) (.node (.node (.node .leaf 121479 121483 (.plain, .Po) .leaf) 121499 121503 (.plain, .Mn) .leaf) 121505 121519 (.plain, .Mn) (.node (.node .leaf 122880 122886 (.plain, .Mn) .leaf) 122888 122904 (.plain, .Mn) .leaf)))) 122907 122913 (.plain, .Mn) (.node (.node (.node (.node (.node .leaf 122915 122916 (.plain, .Mn) .leaf) 122918 122922 (.plain, .Mn) (.node .leaf 123136 123180 (.plain, .Lo) .leaf)) 123184 123190 (.plain, .Mn) (.node (.node .leaf 123191 123197 (.plain, .Lm) .leaf) 123200 123209 (.plain, .Nd) .leaf)) 123214 123214 (.plain, .Lo) (.node (.node (.node .leaf 123215 123215 (.plain, .So) .leaf) 123584 123627 (.plain, .Lo) .leaf) 123628 123631 (.plain, .Mn) (.node (.node .leaf 123632 123641 (.plain, .Nd) .leaf) 123647 123647 (.plain, .Sc) .leaf))) 124928 125124 (.plain, .Lo) (.node (.node (.node (.node .leaf 125127 125135 (.plain, .No) .leaf) 125136 125142 (.plain, .Mn) .leaf) 125184 125217 (.plain, .Lu) (.node (.node .leaf 125218 125251 (.plain, .Ll) .leaf) 125252 125258 (.plain, .Mn) .leaf)) 125259 125259 (.plain, .Lm) (.node (.node (.node .leaf 125264 125273 (.plain, .Nd) .leaf) 125278 125279 (.plain, .Po) .leaf) 126065 126123 (.plain, .No) (.node (.node .leaf 126124 126124 (.plain, .So) .leaf) 126125 126127 (.plain, .No) .leaf))))))

def categoryTable31 : RTree (Kind × Cat) := (.node (.node (.node (.node (.node (.node (.node .leaf 126129 126132 (.plain, .No) .leaf) 126209 126253 (.plain, .No) (.node .leaf 126254 126254 (.plain, .So) .leaf)) 126255 126269 (.plain, .No) (.node (.node .leaf 126464 126467 (.plain, .Lo) .leaf) 126469 126495 (.plain, .Lo) .leaf)) 126497 126498 (.plain, .Lo) (.node (.node (.node .leaf 126500 126500 (.plain, .Lo) .leaf) 126503 126503 (.plain, .Lo) .leaf) 126505 126514 (.plain, .Lo) (.node (.node .leaf 126516 126519 (.plain, .Lo) .leaf) 126521 126521 (.plain, .Lo) .leaf))) 126523 126523 (.plain, .Lo) (.node (.node (.node (.node .leaf 126530 126530 (.plain, .Lo) .leaf) 126535 126535 (.plain, .Lo) .leaf) 126537 126537 (.plain, .Lo) (.node (.node .leaf 126539 126539 (.plain, .Lo) .leaf) 126541 126543 (.plain, .Lo) .leaf)) 126545 126546 (.plain, .Lo) (.node (.node (.node .leaf 126548 126548 (.plain, .Lo) .leaf) 126551 126551 (.plain, .Lo) .leaf) 126553 126553 (.plain, .Lo) (.node (.node .leaf 126555 126555 (.plain, .Lo) .leaf) 126557 126557 (.plain, .Lo) .leaf)))) 126559 126559 (.plain, .Lo) (.node (.node (.node (.node (.node .leaf 126561 126562 (.plain, .Lo) .leaf) 126564 126564 (.plain, .Lo) (.node .leaf 126567 126570 (.plain, .Lo) .leaf)) 126572 126578 (.plain, .Lo) (.node (.node .leaf 126580 126583 (.plain, .Lo) .leaf) 126585 126588 (.plain, .Lo) .leaf)) 126590 126590 (.plain, .Lo) (.node (.node (.node .leaf 126592 126601 (.plain, .Lo) .leaf) 126603 126619 (.plain, .Lo) .leaf) 126625 126627 (.plain, .Lo) (.node (.node .leaf 126629 126633 (.plain, .Lo) .leaf) 126635 126651 (.plain, .Lo) .leaf))) 126704 126705 (.plain, .Sm) (.node (.node (.node (.node .leaf 126976 127019 (.plain, .So) .leaf) 127024 127123 (.plain, .So) .leaf) 127136 127150 (.plain, .So) (.node (.node .leaf 127153 127167 (.plain, .So) .leaf) 127169 127183 (.plain, .So) .leaf)) 127185 127221 (.plain, .So) (.node (.node (.node .leaf 127232 127244 (.plain, .No) .leaf) 127245 127405 (.plain, .So) .leaf) 127462 127490 (.plain, .So) (.node (.node .leaf 127504 127547 (.plain, .So) .leaf) 127552 127560 (.plain, .So) .leaf))))) 127568 127569 (.plain, .So) (.node (.node (.node (.node (.node (.node .leaf 127584 127589 (.plain, .So) .leaf) 127744 127994 (.plain, .So) (.node .leaf 127995 127999 (.plain, .Sk) .leaf)) 128000 128727 (.plain, .So) (.node (.node .leaf 128736 128748 (.plain, .So) .leaf) 128752 128764 (.plain, .So) .leaf)) 128768 128883 (.plain, .So) (.node (.node (.node .leaf 128896 128984 (.plain, .So) .leaf) 128992 129003 (.plain, .So) .leaf) 129024 129035 (.plain, .So) (.node (.node .leaf 129040 129095 (.plain, .So) .leaf) 129104 129113 (.plain, .So) .leaf))) 129120 129159 (.plain, .So) (.node (.node (.node (.node .leaf 129168 129197 (.plain, .So) .leaf) 129200 129201 (.plain, .So) .leaf) 129280 129400 (.plain, .So) (.node (.node .leaf 129402 129483 (.plain, .So) .leaf) 129485 129619 (.plain, .So) .leaf)) 129632 129645 (.plain, .So) (.node (.node (.node .leaf 129648 129652 (.plain, .So) .leaf) 129656 129658 (.plain, .So) .leaf) 129664 129670 (.plain, .So) (.node (.node .leaf 129680 129704 (.plain, .So) .leaf) 129712 129718 (.plain, .So) .leaf)))) 129728 129730 (.plain, .So) (.node (.node (.node (.node (.node .leaf 129744 129750 (.plain, .So) .leaf) 129792 129938 (.plain, .So) (.node .leaf 129940 129994 (.plain, .So) .leaf)) 130032 130041 (.plain, .Nd) (.node (.node .leaf 131072 131072 (.first, .Lo) .leaf) 173789 173789 (.last, .Lo) .leaf)) 173824 173824 (.first, .Lo) (.node (.node (.node .leaf 177972 177972 (.last, .Lo) .leaf) 177984 177984 (.first, .Lo) .leaf) 178205 178205 (.last, .Lo) (.node (.node .leaf 178208 178208 (.first, .Lo) .leaf) 183969 183969 (.last, .Lo) .leaf))) 183984 183984 (.first, .Lo) (.node (.node (.node (.node .leaf 191456 191456 (.last, .Lo) .leaf) 194560 195101 (.plain, .Lo) .leaf) 196608 196608 (.first, .Lo) (.node (.node .leaf 201546 201546 (.last, .Lo) .leaf) 917505 917505 (.plain, .Cf) .leaf)) 917536 917631 (.plain, .Cf) (.node (.node (.node .leaf 917760 917999 (.plain, .Mn) .leaf) 983040 983040 (.first, .Co) .leaf) 1048573 1048573 (.last, .Co) (.node (.node .leaf 1048576 1048576 (.first, .Co) .leaf) 1114109 1114109 (.last, .Co) .leaf))))))

/-- Fields 0 to 2 of UnicodeData.txt. An entry stands for the lines of all code points from the first to the last. -/
def categoryTable : RTree (Kind × Cat) := (.node (.node (.node (.node (.node categoryTable0 296 296 (.plain, .Lu) categoryTable1) 417 417 (.plain, .Ll) (.node categoryTable2 534 534 (.plain, .Lu) categoryTable3)) 999 999 (.plain, .Ll) (.node (.node categoryTable4 1208 1208 (.plain, .Lu) categoryTable5) 1310 1310 (.plain, .Lu) (.node categoryTable6 2142 2142 (.plain, .Po) categoryTable7))) 2809 2809 (.plain, .Lo) (.node (.node (.node categoryTable8 3387 3388 (.plain, .Mn) categoryTable9) 4146 4151 (.plain, .Mn) (.node categoryTable10 6144 6149 (.plain, .Po) categoryTable11)) 7212 7219 (.plain, .Mn) (.node (.node categoryTable12 7746 7746 (.plain, .Lu) categoryTable13) 7854 7854 (.plain, .Lu) (.node categoryTable14 8080 8087 (.plain, .Ll) categoryTable15)))) 8489 8489 (.plain, .So) (.node (.node (.node (.node categoryTable16 10220 10220 (.plain, .Ps) categoryTable17) 11429 11429 (.plain, .Ll) (.node categoryTable18 11789 11789 (.plain, .Pf) categoryTable19)) 12938 12976 (.plain, .So) (.node (.node categoryTable20 42651 42651 (.plain, .Ll) categoryTable21) 42886 42886 (.plain, .Lu) (.node categoryTable22 43443 43443 (.plain, .Mn) categoryTable23))) 64287 64296 (.plain, .Lo) (.node (.node (.node categoryTable24 65438 65439 (.plain, .Lm) categoryTable25) 68160 68168 (.plain, .No) (.node categoryTable26 70194 70195 (.plain, .Mc) categoryTable27)) 71462 71462 (.plain, .Mc) (.node (.node categoryTable28 73109 73109 (.plain, .Mn) categoryTable29) 119966 119967 (.plain, .Lu) (.node categoryTable30 126128 126128 (.plain, .Sc) categoryTable31)))))

def lowerTable0 : RTree Nat := (.node (.node (.node (.node (.node (.node (.node (.node .leaf 65 65 97 .leaf) 66 66 98 .leaf) 67 67 99 (.node (.node .leaf 68 68 100 .leaf) 69 69 101 .leaf)) 70 70 102 (.node (.node (.node .leaf 71 71 103 .leaf) 72 72 104 .leaf) 73 73 105 (.node .leaf 74 74 106 .leaf))) 75 75 107 (.node (.node (.node (.node .leaf 76 76 108 .leaf) 77 77 109 .leaf) 78 78 110 (.node (.node .leaf 79 79 111 .leaf) 80 80 112 .leaf)) 81 81 113 (.node (.node (.node .leaf 82 82 114 .leaf) 83 83 115 .leaf) 84 84 116 (.node .leaf 85 85 117 .leaf)))) 86 86 118 (.node (.node (.node (.node (.node .leaf 87 87 119 .leaf) 88 88 120 .leaf) 89 89 121 (.node (.node .leaf 90 90 122 .leaf) 192 192 224 .leaf)) 193 193 225 (.node (.node (.node .leaf 194 194 226 .leaf) 195 195 227 .leaf) 196 196 228 (.node .leaf 197 197 229 .leaf))) 198 198 230 (.node (.node (.node (.node .leaf 199 199 231 .leaf) 200 200 232 .leaf) 201 201 233 (.node (.node .leaf 202 202 234 .leaf) 203 203 235 .leaf)) 204 204 236 (.node (.node (.node .leaf 205 205 237 .leaf) 206 206 238 .leaf) 207 207 239 (.node .leaf 208 208 240 .leaf))))) 209 209 241 (.node (.node (.node (.node (.node (.node .leaf 210 210 242 .leaf) 211 211 243 .leaf) 212 212 244 (.node (.node .leaf 213 213 245 .leaf) 214 214 246 .leaf)) 216 216 248 (.node (.node (.node .leaf 217 217 249 .leaf) 218 218 250 .leaf) 219 219 251 (.node .leaf 220 220 252 .leaf))) 221 221 253 (.node (.node (.node (.node .leaf 222 222 254 .leaf) 256 256 257 .leaf) 258 258 259 (.node (.node .leaf 260 260 261 .leaf) 262 262 263 .leaf)) 264 264 265 (.node (.node (.node .leaf 266 266 267 .leaf) 268 268 269 .leaf) 270 270 271 (.node .leaf 272 272 273 .leaf)))) 274 274 275 (.node (.node (.node (.node (.node .leaf 276 276 277 .leaf) 278 278 279 .leaf) 280 280 281 (.node (.node .leaf 282 282 283 .leaf) 284 284 285 .leaf)) 286 286 287 (.node (.node (.node .leaf 288 288 289 .leaf) 290 290 291 .leaf) 292 292 293 (.node .leaf 294 294 295 .leaf))) 296 296 297 (.node (.node (.node (.node .leaf 298 298 299 .leaf) 300 300 301 .leaf) 302 302 303 (.node (.node .leaf 304 304 105 .leaf) 306 306 307 .leaf)) 308 308 309 (.node (.node (.node .leaf 310 310 311 .leaf) 313 313 314 .leaf) 315 315 316 (.node .leaf 317 317 318 .leaf)))))) 319 319 320 (.node (.node (.node (.node (.node (.node (.node .leaf 321 321 322 .leaf) 323 323 324 .leaf) 325 325 326 (.node (.node .leaf 327 327 328 .leaf) 330 330 331 .leaf)) 332 332 333 (.node (.node (.node .leaf 334 334 335 .leaf) 336 336 337 .leaf) 338 338 339 (.node .leaf 340 340 341 .leaf))) 342 342 343 (.node (.node (.node (.node .leaf 344 344 345 .leaf) 346 346 347 .leaf) 348 348 349 (.node (.node .leaf 350 350 351 .leaf) 352 352 353 .leaf)) 354 354 355 (.node (.node (.node .leaf 356 356 357 .leaf) 358 358 359 .leaf) 360 360 361 (.node .leaf 362 362 363 .leaf)))) 364 364 365 (.node (.node (.node (.node (.node .leaf 366 366 367 .leaf) 368 368 369 .leaf) 370 370 371 (.node (.node .leaf 372 372 373 .leaf) 374 374 375 .leaf)) 376 376 255 (.node (.node (.node .leaf 377 377 378 .leaf) 379 379 380 .leaf) 381 381 382 (.node .leaf 385 385 595 .leaf))) 386 386 387 (.node (.node (.node (.node .leaf 388 388 389 .leaf) 390 390 596 .leaf) 391 391 392 (.node (.node .leaf 393 393 598 .leaf) 394 394 599 .leaf)) 395 395 396 (.node (.node (.node .leaf 398 398 477 .leaf) 399 399 601 .leaf) 400 400 603 (.node .leaf 401 401 402 .leaf))))) 403 403 608 (.node (.node (.node (.node (.node (.node .leaf 404 404 611 .leaf) 406 406 617 .leaf) 407 407 616 (.node (.node .leaf 408 408 409 .leaf) 412 412 623 .leaf)) 413 413 626 (.node (.node (.node .leaf 415 415 629 .leaf) 416 416 417 .leaf) 418 418 419 (.node .leaf 420 420 421 .leaf))) 422 422 640 (.node (.node (.node (.node .leaf 423 423 424 .leaf) 425 425 643 .leaf) 428 428 429 (.node (.node .leaf 430 430 648 .leaf) 431 431 432 .leaf)) 433 433 650 (.node (.node (.node .leaf 434 434 651 .leaf) 435 435 436 .leaf) 437 437 438 (.node .leaf 439 439 658 .leaf)))) 440 440 441 (.node (.node (.node (.node (.node .leaf 444 444 445 .leaf) 452 452 454 .leaf) 453 453 454 (.node (.node .leaf 455 455 457 .leaf) 456 456 457 .leaf)) 458 458 460 (.node (.node (.node .leaf 459 459 460 .leaf) 461 461 462 .leaf) 463 463 464 (.node .leaf 465 465 466 .leaf))) 467 467 468 (.node (.node (.node (.node .leaf 469 469 470 .leaf) 471 471 472 .leaf) 473 473 474 (.node .leaf 475 475 476 .leaf)) 478 478 479 (.node (.node (.node .leaf 480 480 481 .leaf) 482 482 483 .leaf) 484 484 485 (.node .leaf 486 486 487 .leaf)))))))

def lowerTable1 : RTree Nat := (.node (.node (.node (.node (.node (.node (.node (.node .leaf 490 490 491 .leaf) 492 492 493 .leaf) 494 494 495 (.node (.node .leaf 497 497 499 .leaf) 498 498 499 .leaf)) 500 500 501 (.node (.node (.node .leaf 502 502 405 .leaf) 503 503 447 .leaf) 504 504 505 (.node .leaf 506 506 507 .leaf))) 508 508 509 (.node (.node (.node (.node .leaf 510 510 511 .leaf) 512 512 513 .leaf) 514 514 515 (.node (.node .leaf 516 516 517 .leaf) 518 518 519 .leaf)) 520 520 521 (.node (.node (.node .leaf 522 522 523 .leaf) 524 524 525 .leaf) 526 526 527 (.node .leaf 528 528 529 .leaf)))) 530 530 531 (.node (.node (.node (.node (.node .leaf 532 532 533 .leaf) 534 534 535 .leaf) 536 536 537 (.node (.node .leaf 538 538 539 .leaf) 540 540 541 .leaf)) 542 542 543 (.node (.node (.node .leaf 544 544 414 .leaf) 546 546 547 .leaf) 548 548 549 (.node .leaf 550 550 551 .leaf))) 552 552 553 (.node (.node (.node (.node .leaf 554 554 555 .leaf) 556 556 557 .leaf) 558 558 559 (.node (.node .leaf 560 560 561 .leaf) 562 562 563 .leaf)) 570 570 11365 (.node (.node (.node .leaf 571 571 572 .leaf) 573 573 410 .leaf) 574 574 11366 (.node .leaf 577 577 578 .leaf))))) 579 579 384 (.node (.node (.node (.node (.node (.node .leaf 580 580 649 .leaf) 581 581 652 .leaf) 582 582 583 (.node (.node .leaf 584 584 585 .leaf) 586 586 587 .leaf)) 588 588 589 (.node (.node (.node .leaf 590 590 591 .leaf) 880 880 881 .leaf) 882 882 883 (.node .leaf 886 886 887 .leaf))) 895 895 1011 (.node (.node (.node (.node .leaf 902 902 940 .leaf) 904 904 941 .leaf) 905 905 942 (.node (.node .leaf 906 906 943 .leaf) 908 908 972 .leaf)) 910 910 973 (.node (.node (.node .leaf 911 911 974 .leaf) 913 913 945 .leaf) 914 914 946 (.node .leaf 915 915 947 .leaf)))) 916 916 948 (.node (.node (.node (.node (.node .leaf 917 917 949 .leaf) 918 918 950 .leaf) 919 919 951 (.node (.node .leaf 920 920 952 .leaf) 921 921 953 .leaf)) 922 922 954 (.node (.node (.node .leaf 923 923 955 .leaf) 924 924 956 .leaf) 925 925 957 (.node .leaf 926 926 958 .leaf))) 927 927 959 (.node (.node (.node (.node .leaf 928 928 960 .leaf) 929 929 961 .leaf) 931 931 963 (.node .leaf 932 932 964 .leaf)) 933 933 965 (.node (.node (.node .leaf 934 934 966 .leaf) 935 935 967 .leaf) 936 936 968 (.node .leaf 937 937 969 .leaf)))))) 938 938 970 (.node (.node (.node (.node (.node (.node (.node .leaf 939 939 971 .leaf) 975 975 983 .leaf) 984 984 985 (.node (.node .leaf 986 986 987 .leaf) 988 988 989 .leaf)) 990 990 991 (.node (.node (.node .leaf 992 992 993 .leaf) 994 994 995 .leaf) 996 996 997 (.node .leaf 998 998 999 .leaf))) 1000 1000 1001 (.node (.node (.node (.node .leaf 1002 1002 1003 .leaf) 1004 1004 1005 .leaf) 1006 1006 1007 (.node (.node .leaf 1012 1012 952 .leaf) 1015 1015 1016 .leaf)) 1017 1017 1010 (.node (.node (.node .leaf 1018 1018 1019 .leaf) 1021 1021 891 .leaf) 1022 1022 892 (.node .leaf 1023 1023 893 .leaf)))) 1024 1024 1104 (.node (.node (.node (.node (.node .leaf 1025 1025 1105 .leaf) 1026 1026 1106 .leaf) 1027 1027 1107 (.node (.node .leaf 1028 1028 1108 .leaf) 1029 1029 1109 .leaf)) 1030 1030 1110 (.node (.node (.node .leaf 1031 1031 1111 .leaf) 1032 1032 1112 .leaf) 1033 1033 1113 (.node .leaf 1034 1034 1114 .leaf))) 1035 1035 1115 (.node (.node (.node (.node .leaf 1036 1036 1116 .leaf) 1037 1037 1117 .leaf) 1038 1038 1118 (.node (.node .leaf 1039 1039 1119 .leaf) 1040 1040 1072 .leaf)) 1041 1041 1073 (.node (.node (.node .leaf 1042 1042 1074 .leaf) 1043 1043 1075 .leaf) 1044 1044 1076 (.node .leaf 1045 1045 1077 .leaf))))) 1046 1046 1078 (.node (.node (.node (.node (.node (.node .leaf 1047 1047 1079 .leaf) 1048 1048 1080 .leaf) 1049 1049 1081 (.node (.node .leaf 1050 1050 1082 .leaf) 1051 1051 1083 .leaf)) 1052 1052 1084 (.node (.node (.node .leaf 1053 1053 1085 .leaf) 1054 1054 1086 .leaf) 1055 1055 1087 (.node .leaf 1056 1056 1088 .leaf))) 1057 1057 1089 (.node (.node (.node (.node .leaf 1058 1058 1090 .leaf) 1059 1059 1091 .leaf) 1060 1060 1092 (.node (.node .leaf 1061 1061 1093 .leaf) 1062 1062 1094 .leaf)) 1063 1063 1095 (.node (.node (.node .leaf 1064 1064 1096 .leaf) 1065 1065 1097 .leaf) 1066 1066 1098 (.node .leaf 1067 1067 1099 .leaf)))) 1068 1068 1100 (.node (.node (.node (.node (.node .leaf 1069 1069 1101 .leaf) 1070 1070 1102 .leaf) 1071 1071 1103 (.node (.node .leaf 1120 1120 1121 .leaf) 1122 1122 1123 .leaf)) 1124 1124 1125 (.node (.node (.node .leaf 1126 1126 1127 .leaf) 1128 1128 1129 .leaf) 1130 1130 1131 (.node .leaf 1132 1132 1133 .leaf))) 1134 1134 1135 (.node (.node (.node (.node .leaf 1136 1136 1137 .leaf) 1138 1138 1139 .leaf) 1140 1140 1141 (.node .leaf 1142 1142 1143 .leaf)) 1144 1144 1145 (.node (.node (.node .leaf 1146 1146 1147 .leaf) 1148 1148 1149 .leaf) 1150 1150 1151 (.node .leaf 1152 1152 1153 .leaf)))))))

def lowerTable2 : RTree Nat := (.node (.node (.node (.node (.node (.node (.node (.node .leaf 1164 1164 1165 .leaf) 1166 1166 1167 .leaf) 1168 1168 1169 (.node (.node .leaf 1170 1170 1171 .leaf) 1172 1172 1173 .leaf)) 1174 1174 1175 (.node (.node (.node .leaf 1176 1176 1177 .leaf) 1178 1178 1179 .leaf) 1180 1180 1181 (.node .leaf 1182 1182 1183 .leaf))) 1184 1184 1185 (.node (.node (.node (.node .leaf 1186 1186 1187 .leaf) 1188 1188 1189 .leaf) 1190 1190 1191 (.node (.node .leaf 1192 1192 1193 .leaf) 1194 1194 1195 .leaf)) 1196 1196 1197 (.node (.node (.node .leaf 1198 1198 1199 .leaf) 1200 1200 1201 .leaf) 1202 1202 1203 (.node .leaf 1204 1204 1205 .leaf)))) 1206 1206 1207 (.node (.node (.node (.node (.node .leaf 1208 1208 1209 .leaf) 1210 1210 1211 .leaf) 1212 1212 1213 (.node (.node .leaf 1214 1214 1215 .leaf) 1216 1216 1231 .leaf)) 1217 1217 1218 (.node (.node (.node .leaf 1219 1219 1220 .leaf) 1221 1221 1222 .leaf) 1223 1223 1224 (.node .leaf 1225 1225 1226 .leaf))) 1227 1227 1228 (.node (.node (.node (.node .leaf 1229 1229 1230 .leaf) 1232 1232 1233 .leaf) 1234 1234 1235 (.node (.node .leaf 1236 1236 1237 .leaf) 1238 1238 1239 .leaf)) 1240 1240 1241 (.node (.node (.node .leaf 1242 1242 1243 .leaf) 1244 1244 1245 .leaf) 1246 1246 1247 (.node .leaf 1248 1248 1249 .leaf))))) 1250 1250 1251 (.node (.node (.node (.node (.node (.node .leaf 1252 1252 1253 .leaf) 1254 1254 1255 .leaf) 1256 1256 1257 (.node (.node .leaf 1258 1258 1259 .leaf) 1260 1260 1261 .leaf)) 1262 1262 1263 (.node (.node (.node .leaf 1264 1264 1265 .leaf) 1266 1266 1267 .leaf) 1268 1268 1269 (.node .leaf 1270 1270 1271 .leaf))) 1272 1272 1273 (.node (.node (.node (.node .leaf 1274 1274 1275 .leaf) 1276 1276 1277 .leaf) 1278 1278 1279 (.node (.node .leaf 1280 1280 1281 .leaf) 1282 1282 1283 .leaf)) 1284 1284 1285 (.node (.node (.node .leaf 1286 1286 1287 .leaf) 1288 1288 1289 .leaf) 1290 1290 1291 (.node .leaf 1292 1292 1293 .leaf)))) 1294 1294 1295 (.node (.node (.node (.node (.node .leaf 1296 1296 1297 .leaf) 1298 1298 1299 .leaf) 1300 1300 1301 (.node (.node .leaf 1302 1302 1303 .leaf) 1304 1304 1305 .leaf)) 1306 1306 1307 (.node (.node (.node .leaf 1308 1308 1309 .leaf) 1310 1310 1311 .leaf) 1312 1312 1313 (.node .leaf 1314 1314 1315 .leaf))) 1316 1316 1317 (.node (.node (.node (.node .leaf 1318 1318 1319 .leaf) 1320 1320 1321 .leaf) 1322 1322 1323 (.node .leaf 1324 1324 1325 .leaf)) 1326 1326 1327 (.node (.node (.node .leaf 1329 1329 1377 .leaf) 1330 1330 1378 .leaf) 1331 1331 1379 (.node .leaf 1332 1332 1380 .leaf)))))) 1333 1333 1381 (.node (.node (.node (.node (.node (.node (.node .leaf 1334 1334 1382 .leaf) 1335 1335 1383 .leaf) 1336 1336 1384 (.node (.node .leaf 1337 1337 1385 .leaf) 1338 1338 1386 .leaf)) 1339 1339 1387 (.node (.node (.node .leaf 1340 1340 1388 .leaf) 1341 1341 1389 .leaf) 1342 1342 1390 (.node .leaf 1343 1343 1391 .leaf))) 1344 1344 1392 (.node (.node (.node (.node .leaf 1345 1345 1393 .leaf) 1346 1346 1394 .leaf) 1347 1347 1395 (.node (.node .leaf 1348 1348 1396 .leaf) 1349 1349 1397 .leaf)) 1350 1350 1398 (.node (.node (.node .leaf 1351 1351 1399 .leaf) 1352 1352 1400 .leaf) 1353 1353 1401 (.node .leaf 1354 1354 1402 .leaf)))) 1355 1355 1403 (.node (.node (.node (.node (.node .leaf 1356 1356 1404 .leaf) 1357 1357 1405 .leaf) 1358 1358 1406 (.node (.node .leaf 1359 1359 1407 .leaf) 1360 1360 1408 .leaf)) 1361 1361 1409 (.node (.node (.node .leaf 1362 1362 1410 .leaf) 1363 1363 1411 .leaf) 1364 1364 1412 (.node .leaf 1365 1365 1413 .leaf))) 1366 1366 1414 (.node (.node (.node (.node .leaf 4256 4256 11520 .leaf) 4257 4257 11521 .leaf) 4258 4258 11522 (.node (.node .leaf 4259 4259 11523 .leaf) 4260 4260 11524 .leaf)) 4261 4261 11525 (.node (.node (.node .leaf 4262 4262 11526 .leaf) 4263 4263 11527 .leaf) 4264 4264 11528 (.node .leaf 4265 4265 11529 .leaf))))) 4266 4266 11530 (.node (.node (.node (.node (.node (.node .leaf 4267 4267 11531 .leaf) 4268 4268 11532 .leaf) 4269 4269 11533 (.node (.node .leaf 4270 4270 11534 .leaf) 4271 4271 11535 .leaf)) 4272 4272 11536 (.node (.node (.node .leaf 4273 4273 11537 .leaf) 4274 4274 11538 .leaf) 4275 4275 11539 (.node .leaf 4276 4276 11540 .leaf))) 4277 4277 11541 (.node (.node (.node (.node .leaf 4278 4278 11542 .leaf) 4279 4279 11543 .leaf) 4280 4280 11544 (.node (.node .leaf 4281 4281 11545 .leaf) 4282 4282 11546 .leaf)) 4283 4283 11547 (.node (.node (.node .leaf 4284 4284 11548 .leaf) 4285 4285 11549 .leaf) 4286 4286 11550 (.node .leaf 4287 4287 11551 .leaf)))) 4288 4288 11552 (.node (.node (.node (.node (.node .leaf 4289 4289 11553 .leaf) 4290 4290 11554 .leaf) 4291 4291 11555 (.node (.node .leaf 4292 4292 11556 .leaf) 4293 4293 11557 .leaf)) 4295 4295 11559 (.node (.node (.node .leaf 4301 4301 11565 .leaf) 5024 5024 43888 .leaf) 5025 5025 43889 (.node .leaf 5026 5026 43890 .leaf))) 5027 5027 43891 (.node (.node (.node (.node .leaf 5028 5028 43892 .leaf) 5029 5029 43893 .leaf) 5030 5030 43894 (.node .leaf 5031 5031 43895 .leaf)) 5032 5032 43896 (.node (.node (.node .leaf 5033 5033 43897 .leaf) 5034 5034 43898 .leaf) 5035 5035 43899 (.node .leaf 5036 5036 43900 .leaf)))))))

def lowerTable3 : RTree Nat := (.node (.node (.node (.node (.node (.node (.node (.node .leaf 5038 5038 43902 .leaf) 5039 5039 43903 .leaf) 5040 5040 43904 (.node (.node .leaf 5041 5041 43905 .leaf) 5042 5042 43906 .leaf)) 5043 5043 43907 (.node (.node (.node .leaf 5044 5044 43908 .leaf) 5045 5045 43909 .leaf) 5046 5046 43910 (.node .leaf 5047 5047 43911 .leaf))) 5048 5048 43912 (.node (.node (.node (.node .leaf 5049 5049 43913 .leaf) 5050 5050 43914 .leaf) 5051 5051 43915 (.node (.node .leaf 5052 5052 43916 .leaf) 5053 5053 43917 .leaf)) 5054 5054 43918 (.node (.node (.node .leaf 5055 5055 43919 .leaf) 5056 5056 43920 .leaf) 5057 5057 43921 (.node .leaf 5058 5058 43922 .leaf)))) 5059 5059 43923 (.node (.node (.node (.node (.node .leaf 5060 5060 43924 .leaf) 5061 5061 43925 .leaf) 5062 5062 43926 (.node (.node .leaf 5063 5063 43927 .leaf) 5064 5064 43928 .leaf)) 5065 5065 43929 (.node (.node (.node .leaf 5066 5066 43930 .leaf) 5067 5067 43931 .leaf) 5068 5068 43932 (.node .leaf 5069 5069 43933 .leaf))) 5070 5070 43934 (.node (.node (.node (.node .leaf 5071 5071 43935 .leaf) 5072 5072 43936 .leaf) 5073 5073 43937 (.node (.node .leaf 5074 5074 43938 .leaf) 5075 5075 43939 .leaf)) 5076 5076 43940 (.node (.node (.node .leaf 5077 5077 43941 .leaf) 5078 5078 43942 .leaf) 5079 5079 43943 (.node .leaf 5080 5080 43944 .leaf))))) 5081 5081 43945 (.node (.node (.node (.node (.node (.node .leaf 5082 5082 43946 .leaf) 5083 5083 43947 .leaf) 5084 5084 43948 (.node (.node .leaf 5085 5085 43949 .leaf) 5086 5086 43950 .leaf)) 5087 5087 43951 (.node (.node (.node .leaf 5088 5088 43952 .leaf) 5089 5089 43953 .leaf) 5090 5090 43954 (.node .leaf 5091 5091 43955 .leaf))) 5092 5092 43956 (.node (.node (.node (.node .leaf 5093 5093 43957 .leaf) 5094 5094 43958 .leaf) 5095 5095 43959 (.node (.node .leaf 5096 5096 43960 .leaf) 5097 5097 43961 .leaf)) 5098 5098 43962 (.node (.node (.node .leaf 5099 5099 43963 .leaf) 5100 5100 43964 .leaf) 5101 5101 43965 (.node .leaf 5102 5102 43966 .leaf)))) 5103 5103 43967 (.node (.node (.node (.node (.node .leaf 5104 5104 5112 .leaf) 5105 5105 5113 .leaf) 5106 5106 5114 (.node (.node .leaf 5107 5107 5115 .leaf) 5108 5108 5116 .leaf)) 5109 5109 5117 (.node (.node (.node .leaf 7312 7312 4304 .leaf) 7313 7313 4305 .leaf) 7314 7314 4306 (.node .leaf 7315 7315 4307 .leaf))) 7316 7316 4308 (.node (.node (.node (.node .leaf 7317 7317 4309 .leaf) 7318 7318 4310 .leaf) 7319 7319 4311 (.node .leaf 7320 7320 4312 .leaf)) 7321 7321 4313 (.node (.node (.node .leaf 7322 7322 4314 .leaf) 7323 7323 4315 .leaf) 7324 7324 4316 (.node .leaf 7325 7325 4317 .leaf)))))) 7326 7326 4318 (.node (.node (.node (.node (.node (.node (.node .leaf 7327 7327 4319 .leaf) 7328 7328 4320 .leaf) 7329 7329 4321 (.node (.node .leaf 7330 7330 4322 .leaf) 7331 7331 4323 .leaf)) 7332 7332 4324 (.node (.node (.node .leaf 7333 7333 4325 .leaf) 7334 7334 4326 .leaf) 7335 7335 4327 (.node .leaf 7336 7336 4328 .leaf))) 7337 7337 4329 (.node (.node (.node (.node .leaf 7338 7338 4330 .leaf) 7339 7339 4331 .leaf) 7340 7340 4332 (.node (.node .leaf 7341 7341 4333 .leaf) 7342 7342 4334 .leaf)) 7343 7343 4335 (.node (.node (.node .leaf 7344 7344 4336 .leaf) 7345 7345 4337 .leaf) 7346 7346 4338 (.node .leaf 7347 7347 4339 .leaf)))) 7348 7348 4340 (.node (.node (.node (.node (.node .leaf 7349 7349 4341 .leaf) 7350 7350 4342 .leaf) 7351 7351 4343 (.node (.node .leaf 7352 7352 4344 .leaf) 7353 7353 4345 .leaf)) 7354 7354 4346 (.node (.node (.node .leaf 7357 7357 4349 .leaf) 7358 7358 4350 .leaf) 7359 7359 4351 (.node .leaf 7680 7680 7681 .leaf))) 7682 7682 7683 (.node (.node (.node (.node .leaf 7684 7684 7685 .leaf) 7686 7686 7687 .leaf) 7688 7688 7689 (.node (.node .leaf 7690 7690 7691 .leaf) 7692 7692 7693 .leaf)) 7694 7694 7695 (.node (.node (.node .leaf 7696 7696 7697 .leaf) 7698 7698 7699 .leaf) 7700 7700 7701 (.node .leaf 7702 7702 7703 .leaf))))) 7704 7704 7705 (.node (.node (.node (.node (.node (.node .leaf 7706 7706 7707 .leaf) 7708 7708 7709 .leaf) 7710 7710 7711 (.node (.node .leaf 7712 7712 7713 .leaf) 7714 7714 7715 .leaf)) 7716 7716 7717 (.node (.node (.node .leaf 7718 7718 7719 .leaf) 7720 7720 7721 .leaf) 7722 7722 7723 (.node .leaf 7724 7724 7725 .leaf))) 7726 7726 7727 (.node (.node (.node (.node .leaf 7728 7728 7729 .leaf) 7730 7730 7731 .leaf) 7732 7732 7733 (.node (.node .leaf 7734 7734 7735 .leaf) 7736 7736 7737 .leaf)) 7738 7738 7739 (.node (.node (.node .leaf 7740 7740 7741 .leaf) 7742 7742 7743 .leaf) 7744 7744 7745 (.node .leaf 7746 7746 7747 .leaf)))) 7748 7748 7749 (.node (.node (.node (.node (.node .leaf 7750 7750 7751 .leaf) 7752 7752 7753 .leaf) 7754 7754 7755 (.node (.node .leaf 7756 7756 7757 .leaf) 7758 7758 7759 .leaf)) 7760 7760 7761 (.node (.node (.node .leaf 7762 7762 7763 .leaf) 7764 7764 7765 .leaf) 7766 7766 7767 (.node .leaf 7768 7768 7769 .leaf))) 7770 7770 7771 (.node (.node (.node (.node .leaf 7772 7772 7773 .leaf) 7774 7774 7775 .leaf) 7776 7776 7777 (.node .leaf 7778 7778 7779 .leaf)) 7780 7780 7781 (.node (.node (.node .leaf 7782 7782 7783 .leaf) 7784 7784 7785 .leaf) 7786 7786 7787 (.node .leaf 7788 7788 7789 .leaf)))))))

def lowerTable4 : RTree Nat := (.node (.node (.node (.node (.node (.node (.node (.node .leaf 7792 7792 7793 .leaf) 7794 7794 7795 .leaf) 7796 7796 7797 (.node (.node .leaf 7798 7798 7799 .leaf) 7800 7800 7801 .leaf)) 7802 7802 7803 (.node (.node (.node .leaf 7804 7804 7805 .leaf) 7806 7806 7807 .leaf) 7808 7808 7809 (.node .leaf 7810 7810 7811 .leaf))) 7812 7812 7813 (.node (.node (.node (.node .leaf 7814 7814 7815 .leaf) 7816 7816 7817 .leaf) 7818 7818 7819 (.node (.node .leaf 7820 7820 7821 .leaf) 7822 7822 7823 .leaf)) 7824 7824 7825 (.node (.node (.node .leaf 7826 7826 7827 .leaf) 7828 7828 7829 .leaf) 7838 7838 223 (.node .leaf 7840 7840 7841 .leaf)))) 7842 7842 7843 (.node (.node (.node (.node (.node .leaf 7844 7844 7845 .leaf) 7846 7846 7847 .leaf) 7848 7848 7849 (.node (.node .leaf 7850 7850 7851 .leaf) 7852 7852 7853 .leaf)) 7854 7854 7855 (.node (.node (.node .leaf 7856 7856 7857 .leaf) 7858 7858 7859 .leaf) 7860 7860 7861 (.node .leaf 7862 7862 7863 .leaf))) 7864 7864 7865 (.node (.node (.node (.node .leaf 7866 7866 7867 .leaf) 7868 7868 7869 .leaf) 7870 7870 7871 (.node (.node .leaf 7872 7872 7873 .leaf) 7874 7874 7875 .leaf)) 7876 7876 7877 (.node (.node (.node .leaf 7878 7878 7879 .leaf) 7880 7880 7881 .leaf) 7882 7882 7883 (.node .leaf 7884 7884 7885 .leaf))))) 7886 7886 7887 (.node (.node (.node (.node (.node (.node .leaf 7888 7888 7889 .leaf) 7890 7890 7891 .leaf) 7892 7892 7893 (.node (.node .leaf 7894 7894 7895 .leaf) 7896 7896 7897 .leaf)) 7898 7898 7899 (.node (.node (.node .leaf 7900 7900 7901 .leaf) 7902 7902 7903 .leaf) 7904 7904 7905 (.node .leaf 7906 7906 7907 .leaf))) 7908 7908 7909 (.node (.node (.node (.node .leaf 7910 7910 7911 .leaf) 7912 7912 7913 .leaf) 7914 7914 7915 (.node (.node .leaf 7916 7916 7917 .leaf) 7918 7918 7919 .leaf)) 7920 7920 7921 (.node (.node (.node .leaf 7922 7922 7923 .leaf) 7924 7924 7925 .leaf) 7926 7926 7927 (.node .leaf 7928 7928 7929 .leaf)))) 7930 7930 7931 (.node (.node (.node (.node (.node .leaf 7932 7932 7933 .leaf) 7934 7934 7935 .leaf) 7944 7944 7936 (.node (.node .leaf 7945 7945 7937 .leaf) 7946 7946 7938 .leaf)) 7947 7947 7939 (.node (.node (.node .leaf 7948 7948 7940 .leaf) 7949 7949 7941 .leaf) 7950 7950 7942 (.node .leaf 7951 7951 7943 .leaf))) 7960 7960 7952 (.node (.node (.node (.node .leaf 7961 7961 7953 .leaf) 7962 7962 7954 .leaf) 7963 7963 7955 (.node (.node .leaf 7964 7964 7956 .leaf) 7965 7965 7957 .leaf)) 7976 7976 7968 (.node (.node (.node .leaf 7977 7977 7969 .leaf) 7978 7978 7970 .leaf) 7979 7979 7971 (.node .leaf 7980 7980 7972 .leaf)))))) 7981 7981 7973 (.node (.node (.node (.node (.node (.node (.node .leaf 7982 7982 7974 .leaf) 7983 7983 7975 .leaf) 7992 7992 7984 (.node (.node .leaf 7993 7993 7985 .leaf) 7994 7994 7986 .leaf)) 7995 7995 7987 (.node (.node (.node .leaf 7996 7996 7988 .leaf) 7997 7997 7989 .leaf) 7998 7998 7990 (.node .leaf 7999 7999 7991 .leaf))) 8008 8008 8000 (.node (.node (.node (.node .leaf 8009 8009 8001 .leaf) 8010 8010 8002 .leaf) 8011 8011 8003 (.node (.node .leaf 8012 8012 8004 .leaf) 8013 8013 8005 .leaf)) 8025 8025 8017 (.node (.node (.node .leaf 8027 8027 8019 .leaf) 8029 8029 8021 .leaf) 8031 8031 8023 (.node .leaf 8040 8040 8032 .leaf)))) 8041 8041 8033 (.node (.node (.node (.node (.node .leaf 8042 8042 8034 .leaf) 8043 8043 8035 .leaf) 8044 8044 8036 (.node (.node .leaf 8045 8045 8037 .leaf) 8046 8046 8038 .leaf)) 8047 8047 8039 (.node (.node (.node .leaf 8072 8072 8064 .leaf) 8073 8073 8065 .leaf) 8074 8074 8066 (.node .leaf 8075 8075 8067 .leaf))) 8076 8076 8068 (.node (.node (.node (.node .leaf 8077 8077 8069 .leaf) 8078 8078 8070 .leaf) 8079 8079 8071 (.node (.node .leaf 8088 8088 8080 .leaf) 8089 8089 8081 .leaf)) 8090 8090 8082 (.node (.node (.node .leaf 8091 8091 8083 .leaf) 8092 8092 8084 .leaf) 8093 8093 8085 (.node .leaf 8094 8094 8086 .leaf))))) 8095 8095 8087 (.node (.node (.node (.node (.node (.node .leaf 8104 8104 8096 .leaf) 8105 8105 8097 .leaf) 8106 8106 8098 (.node (.node .leaf 8107 8107 8099 .leaf) 8108 8108 8100 .leaf)) 8109 8109 8101 (.node (.node (.node .leaf 8110 8110 8102 .leaf) 8111 8111 8103 .leaf) 8120 8120 8112 (.node .leaf 8121 8121 8113 .leaf))) 8122 8122 8048 (.node (.node (.node (.node .leaf 8123 8123 8049 .leaf) 8124 8124 8115 .leaf) 8136 8136 8050 (.node (.node .leaf 8137 8137 8051 .leaf) 8138 8138 8052 .leaf)) 8139 8139 8053 (.node (.node (.node .leaf 8140 8140 8131 .leaf) 8152 8152 8144 .leaf) 8153 8153 8145 (.node .leaf 8154 8154 8054 .leaf)))) 8155 8155 8055 (.node (.node (.node (.node (.node .leaf 8168 8168 8160 .leaf) 8169 8169 8161 .leaf) 8170 8170 8058 (.node (.node .leaf 8171 8171 8059 .leaf) 8172 8172 8165 .leaf)) 8184 8184 8056 (.node (.node (.node .leaf 8185 8185 8057 .leaf) 8186 8186 8060 .leaf) 8187 8187 8061 (.node .leaf 8188 8188 8179 .leaf))) 8486 8486 969 (.node (.node (.node (.node .leaf 8490 8490 107 .leaf) 8491 8491 229 .leaf) 8498 8498 8526 (.node .leaf 8544 8544 8560 .leaf)) 8545 8545 8561 (.node (.node (.node .leaf 8546 8546 8562 .leaf) 8547 8547 8563 .leaf) 8548 8548 8564 (.node .leaf 8549 8549 8565 .leaf)))))))

def lowerTable5 : RTree Nat := (.node (.node (.node (.node (.node (.node (.node (.node .leaf 8551 8551 8567 .leaf) 8552 8552 8568 .leaf) 8553 8553 8569 (.node (.node .leaf 8554 8554 8570 .leaf) 8555 8555 8571 .leaf)) 8556 8556 8572 (.node (.node (.node .leaf 8557 8557 8573 .leaf) 8558 8558 8574 .leaf) 8559 8559 8575 (.node .leaf 8579 8579 8580 .leaf))) 9398 9398 9424 (.node (.node (.node (.node .leaf 9399 9399 9425 .leaf) 9400 9400 9426 .leaf) 9401 9401 9427 (.node (.node .leaf 9402 9402 9428 .leaf) 9403 9403 9429 .leaf)) 9404 9404 9430 (.node (.node (.node .leaf 9405 9405 9431 .leaf) 9406 9406 9432 .leaf) 9407 9407 9433 (.node .leaf 9408 9408 9434 .leaf)))) 9409 9409 9435 (.node (.node (.node (.node (.node .leaf 9410 9410 9436 .leaf) 9411 9411 9437 .leaf) 9412 9412 9438 (.node (.node .leaf 9413 9413 9439 .leaf) 9414 9414 9440 .leaf)) 9415 9415 9441 (.node (.node (.node .leaf 9416 9416 9442 .leaf) 9417 9417 9443 .leaf) 9418 9418 9444 (.node .leaf 9419 9419 9445 .leaf))) 9420 9420 9446 (.node (.node (.node (.node .leaf 9421 9421 9447 .leaf) 9422 9422 9448 .leaf) 9423 9423 9449 (.node (.node .leaf 11264 11264 11312 .leaf) 11265 11265 11313 .leaf)) 11266 11266 11314 (.node (.node (.node .leaf 11267 11267 11315 .leaf) 11268 11268 11316 .leaf) 11269 11269 11317 (.node .leaf 11270 11270 11318 .leaf))))) 11271 11271 11319 (.node (.node (.node (.node (.node (.node .leaf 11272 11272 11320 .leaf) 11273 11273 11321 .leaf) 11274 11274 11322 (.node (.node .leaf 11275 11275 11323 .leaf) 11276 11276 11324 .leaf)) 11277 11277 11325 (.node (.node (.node .leaf 11278 11278 11326 .leaf) 11279 11279 11327 .leaf) 11280 11280 11328 (.node .leaf 11281 11281 11329 .leaf))) 11282 11282 11330 (.node (.node (.node (.node .leaf 11283 11283 11331 .leaf) 11284 11284 11332 .leaf) 11285 11285 11333 (.node (.node .leaf 11286 11286 11334 .leaf) 11287 11287 11335 .leaf)) 11288 11288 11336 (.node (.node (.node .leaf 11289 11289 11337 .leaf) 11290 11290 11338 .leaf) 11291 11291 11339 (.node .leaf 11292 11292 11340 .leaf)))) 11293 11293 11341 (.node (.node (.node (.node (.node .leaf 11294 11294 11342 .leaf) 11295 11295 11343 .leaf) 11296 11296 11344 (.node (.node .leaf 11297 11297 11345 .leaf) 11298 11298 11346 .leaf)) 11299 11299 11347 (.node (.node (.node .leaf 11300 11300 11348 .leaf) 11301 11301 11349 .leaf) 11302 11302 11350 (.node .leaf 11303 11303 11351 .leaf))) 11304 11304 11352 (.node (.node (.node (.node .leaf 11305 11305 11353 .leaf) 11306 11306 11354 .leaf) 11307 11307 11355 (.node .leaf 11308 11308 11356 .leaf)) 11309 11309 11357 (.node (.node (.node .leaf 11310 11310 11358 .leaf) 11360 11360 11361 .leaf) 11362 11362 619 (.node .leaf 11363 11363 7549 .leaf)))))) 11364 11364 637 (.node (.node (.node (.node (.node (.node (.node .leaf 11367 11367 11368 .leaf) 11369 11369 11370 .leaf) 11371 11371 11372 (.node (.node .leaf 11373 11373 593 .leaf) 11374 11374 625 .leaf)) 11375 11375 592 (.node (.node (.node .leaf 11376 11376 594 .leaf) 11378 11378 11379 .leaf) 11381 11381 11382 (.node .leaf 11390 11390 575 .leaf))) 11391 11391 576 (.node (.node (.node (.node .leaf 11392 11392 11393 .leaf) 11394 11394 11395 .leaf) 11396 11396 11397 (.node (.node .leaf 11398 11398 11399 .leaf) 11400 11400 11401 .leaf)) 11402 11402 11403 (.node (.node (.node .leaf 11404 11404 11405 .leaf) 11406 11406 11407 .leaf) 11408 11408 11409 (.node .leaf 11410 11410 11411 .leaf)))) 11412 11412 11413 (.node (.node (.node (.node (.node .leaf 11414 11414 11415 .leaf) 11416 11416 11417 .leaf) 11418 11418 11419 (.node (.node .leaf 11420 11420 11421 .leaf) 11422 11422 11423 .leaf)) 11424 11424 11425 (.node (.node (.node .leaf 11426 11426 11427 .leaf) 11428 11428 11429 .leaf) 11430 11430 11431 (.node .leaf 11432 11432 11433 .leaf))) 11434 11434 11435 (.node (.node (.node (.node .leaf 11436 11436 11437 .leaf) 11438 11438 11439 .leaf) 11440 11440 11441 (.node (.node .leaf 11442 11442 11443 .leaf) 11444 11444 11445 .leaf)) 11446 11446 11447 (.node (.node (.node .leaf 11448 11448 11449 .leaf) 11450 11450 11451 .leaf) 11452 11452 11453 (.node .leaf 11454 11454 11455 .leaf))))) 11456 11456 11457 (.node (.node (.node (.node (.node (.node .leaf 11458 11458 11459 .leaf) 11460 11460 11461 .leaf) 11462 11462 11463 (.node (.node .leaf 11464 11464 11465 .leaf) 11466 11466 11467 .leaf)) 11468 11468 11469 (.node (.node (.node .leaf 11470 11470 11471 .leaf) 11472 11472 11473 .leaf) 11474 11474 11475 (.node .leaf 11476 11476 11477 .leaf))) 11478 11478 11479 (.node (.node (.node (.node .leaf 11480 11480 11481 .leaf) 11482 11482 11483 .leaf) 11484 11484 11485 (.node (.node .leaf 11486 11486 11487 .leaf) 11488 11488 11489 .leaf)) 11490 11490 11491 (.node (.node (.node .leaf 11499 11499 11500 .leaf) 11501 11501 11502 .leaf) 11506 11506 11507 (.node .leaf 42560 42560 42561 .leaf)))) 42562 42562 42563 (.node (.node (.node (.node (.node .leaf 42564 42564 42565 .leaf) 42566 42566 42567 .leaf) 42568 42568 42569 (.node (.node .leaf 42570 42570 42571 .leaf) 42572 42572 42573 .leaf)) 42574 42574 42575 (.node (.node (.node .leaf 42576 42576 42577 .leaf) 42578 42578 42579 .leaf) 42580 42580 42581 (.node .leaf 42582 42582 42583 .leaf))) 42584 42584 42585 (.node (.node (.node (.node .leaf 42586 42586 42587 .leaf) 42588 42588 42589 .leaf) 42590 42590 42591 (.node .leaf 42592 42592 42593 .leaf)) 42594 42594 42595 (.node (.node (.node .leaf 42596 42596 42597 .leaf) 42598 42598 42599 .leaf) 42600 42600 42601 (.node .leaf 42602 42602 42603 .leaf)))))))

def lowerTable6 : RTree Nat := (.node (.node (.node (.node (.node (.node (.node (.node .leaf 42624 42624 42625 .leaf) 42626 42626 42627 .leaf) 42628 42628 42629 (.node (.node .leaf 42630 42630 42631 .leaf) 42632 42632 42633 .leaf)) 42634 42634 42635 (.node (.node (.node .leaf 42636 42636 42637 .leaf) 42638 42638 42639 .leaf) 42640 42640 42641 (.node .leaf 42642 42642 42643 .leaf))) 42644 42644 42645 (.node (.node (.node (.node .leaf 42646 42646 42647 .leaf) 42648 42648 42649 .leaf) 42650 42650 42651 (.node (.node .leaf 42786 42786 42787 .leaf) 42788 42788 42789 .leaf)) 42790 42790 42791 (.node (.node (.node .leaf 42792 42792 42793 .leaf) 42794 42794 42795 .leaf) 42796 42796 42797 (.node .leaf 42798 42798 42799 .leaf)))) 42802 42802 42803 (.node (.node (.node (.node (.node .leaf 42804 42804 42805 .leaf) 42806 42806 42807 .leaf) 42808 42808 42809 (.node (.node .leaf 42810 42810 42811 .leaf) 42812 42812 42813 .leaf)) 42814 42814 42815 (.node (.node (.node .leaf 42816 42816 42817 .leaf) 42818 42818 42819 .leaf) 42820 42820 42821 (.node .leaf 42822 42822 42823 .leaf))) 42824 42824 42825 (.node (.node (.node (.node .leaf 42826 42826 42827 .leaf) 42828 42828 42829 .leaf) 42830 42830 42831 (.node (.node .leaf 42832 42832 42833 .leaf) 42834 42834 42835 .leaf)) 42836 42836 42837 (.node (.node (.node .leaf 42838 42838 42839 .leaf) 42840 42840 42841 .leaf) 42842 42842 42843 (.node .leaf 42844 42844 42845 .leaf))))) 42846 42846 42847 (.node (.node (.node (.node (.node (.node .leaf 42848 42848 42849 .leaf) 42850 42850 42851 .leaf) 42852 42852 42853 (.node (.node .leaf 42854 42854 42855 .leaf) 42856 42856 42857 .leaf)) 42858 42858 42859 (.node (.node (.node .leaf 42860 42860 42861 .leaf) 42862 42862 42863 .leaf) 42873 42873 42874 (.node .leaf 42875 42875 42876 .leaf))) 42877 42877 7545 (.node (.node (.node (.node .leaf 42878 42878 42879 .leaf) 42880 42880 42881 .leaf) 42882 42882 42883 (.node (.node .leaf 42884 42884 42885 .leaf) 42886 42886 42887 .leaf)) 42891 42891 42892 (.node (.node (.node .leaf 42893 42893 613 .leaf) 42896 42896 42897 .leaf) 42898 42898 42899 (.node .leaf 42902 42902 42903 .leaf)))) 42904 42904 42905 (.node (.node (.node (.node (.node .leaf 42906 42906 42907 .leaf) 42908 42908 42909 .leaf) 42910 42910 42911 (.node (.node .leaf 42912 42912 42913 .leaf) 42914 42914 42915 .leaf)) 42916 42916 42917 (.node (.node (.node .leaf 42918 42918 42919 .leaf) 42920 42920 42921 .leaf) 42922 42922 614 (.node .leaf 42923 42923 604 .leaf))) 42924 42924 609 (.node (.node (.node (.node .leaf 42925 42925 620 .leaf) 42926 42926 618 .leaf) 42928 42928 670 (.node .leaf 42929 42929 647 .leaf)) 42930 42930 669 (.node (.node (.node .leaf 42931 42931 43859 .leaf) 42932 42932 42933 .leaf) 42934 42934 42935 (.node .leaf 42936 42936 42937 .leaf)))))) 42938 42938 42939 (.node (.node (.node (.node (.node (.node (.node .leaf 42940 42940 42941 .leaf) 42942 42942 42943 .leaf) 42946 42946 42947 (.node (.node .leaf 42948 42948 42900 .leaf) 42949 42949 642 .leaf)) 42950 42950 7566 (.node (.node (.node .leaf 42951 42951 42952 .leaf) 42953 42953 42954 .leaf) 42997 42997 42998 (.node .leaf 65313 65313 65345 .leaf))) 65314 65314 65346 (.node (.node (.node (.node .leaf 65315 65315 65347 .leaf) 65316 65316 65348 .leaf) 65317 65317 65349 (.node (.node .leaf 65318 65318 65350 .leaf) 65319 65319 65351 .leaf)) 65320 65320 65352 (.node (.node (.node .leaf 65321 65321 65353 .leaf) 65322 65322 65354 .leaf) 65323 65323 65355 (.node .leaf 65324 65324 65356 .leaf)))) 65325 65325 65357 (.node (.node (.node (.node (.node .leaf 65326 65326 65358 .leaf) 65327 65327 65359 .leaf) 65328 65328 65360 (.node (.node .leaf 65329 65329 65361 .leaf) 65330 65330 65362 .leaf)) 65331 65331 65363 (.node (.node (.node .leaf 65332 65332 65364 .leaf) 65333 65333 65365 .leaf) 65334 65334 65366 (.node .leaf 65335 65335 65367 .leaf))) 65336 65336 65368 (.node (.node (.node (.node .leaf 65337 65337 65369 .leaf) 65338 65338 65370 .leaf) 66560 66560 66600 (.node (.node .leaf 66561 66561 66601 .leaf) 66562 66562 66602 .leaf)) 66563 66563 66603 (.node (.node (.node .leaf 66564 66564 66604 .leaf) 66565 66565 66605 .leaf) 66566 66566 66606 (.node .leaf 66567 66567 66607 .leaf))))) 66568 66568 66608 (.node (.node (.node (.node (.node (.node .leaf 66569 66569 66609 .leaf) 66570 66570 66610 .leaf) 66571 66571 66611 (.node (.node .leaf 66572 66572 66612 .leaf) 66573 66573 66613 .leaf)) 66574 66574 66614 (.node (.node (.node .leaf 66575 66575 66615 .leaf) 66576 66576 66616 .leaf) 66577 66577 66617 (.node .leaf 66578 66578 66618 .leaf))) 66579 66579 66619 (.node (.node (.node (.node .leaf 66580 66580 66620 .leaf) 66581 66581 66621 .leaf) 66582 66582 66622 (.node (.node .leaf 66583 66583 66623 .leaf) 66584 66584 66624 .leaf)) 66585 66585 66625 (.node (.node (.node .leaf 66586 66586 66626 .leaf) 66587 66587 66627 .leaf) 66588 66588 66628 (.node .leaf 66589 66589 66629 .leaf)))) 66590 66590 66630 (.node (.node (.node (.node (.node .leaf 66591 66591 66631 .leaf) 66592 66592 66632 .leaf) 66593 66593 66633 (.node (.node .leaf 66594 66594 66634 .leaf) 66595 66595 66635 .leaf)) 66596 66596 66636 (.node (.node (.node .leaf 66597 66597 66637 .leaf) 66598 66598 66638 .leaf) 66599 66599 66639 (.node .leaf 66736 66736 66776 .leaf))) 66737 66737 66777 (.node (.node (.node (.node .leaf 66738 66738 66778 .leaf) 66739 66739 66779 .leaf) 66740 66740 66780 (.node .leaf 66741 66741 66781 .leaf)) 66742 66742 66782 (.node (.node (.node .leaf 66743 66743 66783 .leaf) 66744 66744 66784 .leaf) 66745 66745 66785 (.node .leaf 66746 66746 66786 .leaf)))))))

def lowerTable7 : RTree Nat := (.node (.node (.node (.node (.node (.node (.node (.node .leaf 66748 66748 66788 .leaf) 66749 66749 66789 .leaf) 66750 66750 66790 (.node (.node .leaf 66751 66751 66791 .leaf) 66752 66752 66792 .leaf)) 66753 66753 66793 (.node (.node (.node .leaf 66754 66754 66794 .leaf) 66755 66755 66795 .leaf) 66756 66756 66796 (.node .leaf 66757 66757 66797 .leaf))) 66758 66758 66798 (.node (.node (.node (.node .leaf 66759 66759 66799 .leaf) 66760 66760 66800 .leaf) 66761 66761 66801 (.node (.node .leaf 66762 66762 66802 .leaf) 66763 66763 66803 .leaf)) 66764 66764 66804 (.node (.node (.node .leaf 66765 66765 66805 .leaf) 66766 66766 66806 .leaf) 66767 66767 66807 (.node .leaf 66768 66768 66808 .leaf)))) 66769 66769 66809 (.node (.node (.node (.node (.node .leaf 66770 66770 66810 .leaf) 66771 66771 66811 .leaf) 68736 68736 68800 (.node (.node .leaf 68737 68737 68801 .leaf) 68738 68738 68802 .leaf)) 68739 68739 68803 (.node (.node (.node .leaf 68740 68740 68804 .leaf) 68741 68741 68805 .leaf) 68742 68742 68806 (.node .leaf 68743 68743 68807 .leaf))) 68744 68744 68808 (.node (.node (.node (.node .leaf 68745 68745 68809 .leaf) 68746 68746 68810 .leaf) 68747 68747 68811 (.node (.node .leaf 68748 68748 68812 .leaf) 68749 68749 68813 .leaf)) 68750 68750 68814 (.node (.node (.node .leaf 68751 68751 68815 .leaf) 68752 68752 68816 .leaf) 68753 68753 68817 (.node .leaf 68754 68754 68818 .leaf))))) 68755 68755 68819 (.node (.node (.node (.node (.node (.node .leaf 68756 68756 68820 .leaf) 68757 68757 68821 .leaf) 68758 68758 68822 (.node (.node .leaf 68759 68759 68823 .leaf) 68760 68760 68824 .leaf)) 68761 68761 68825 (.node (.node (.node .leaf 68762 68762 68826 .leaf) 68763 68763 68827 .leaf) 68764 68764 68828 (.node .leaf 68765 68765 68829 .leaf))) 68766 68766 68830 (.node (.node (.node (.node .leaf 68767 68767 68831 .leaf) 68768 68768 68832 .leaf) 68769 68769 68833 (.node (.node .leaf 68770 68770 68834 .leaf) 68771 68771 68835 .leaf)) 68772 68772 68836 (.node (.node (.node .leaf 68773 68773 68837 .leaf) 68774 68774 68838 .leaf) 68775 68775 68839 (.node .leaf 68776 68776 68840 .leaf)))) 68777 68777 68841 (.node (.node (.node (.node (.node .leaf 68778 68778 68842 .leaf) 68779 68779 68843 .leaf) 68780 68780 68844 (.node (.node .leaf 68781 68781 68845 .leaf) 68782 68782 68846 .leaf)) 68783 68783 68847 (.node (.node (.node .leaf 68784 68784 68848 .leaf) 68785 68785 68849 .leaf) 68786 68786 68850 (.node .leaf 71840 71840 71872 .leaf))) 71841 71841 71873 (.node (.node (.node (.node .leaf 71842 71842 71874 .leaf) 71843 71843 71875 .leaf) 71844 71844 71876 (.node .leaf 71845 71845 71877 .leaf)) 71846 71846 71878 (.node (.node (.node .leaf 71847 71847 71879 .leaf) 71848 71848 71880 .leaf) 71849 71849 71881 (.node .leaf 71850 71850 71882 .leaf)))))) 71851 71851 71883 (.node (.node (.node (.node (.node (.node (.node .leaf 71852 71852 71884 .leaf) 71853 71853 71885 .leaf) 71854 71854 71886 (.node (.node .leaf 71855 71855 71887 .leaf) 71856 71856 71888 .leaf)) 71857 71857 71889 (.node (.node (.node .leaf 71858 71858 71890 .leaf) 71859 71859 71891 .leaf) 71860 71860 71892 (.node .leaf 71861 71861 71893 .leaf))) 71862 71862 71894 (.node (.node (.node (.node .leaf 71863 71863 71895 .leaf) 71864 71864 71896 .leaf) 71865 71865 71897 (.node (.node .leaf 71866 71866 71898 .leaf) 71867 71867 71899 .leaf)) 71868 71868 71900 (.node (.node (.node .leaf 71869 71869 71901 .leaf) 71870 71870 71902 .leaf) 71871 71871 71903 (.node .leaf 93760 93760 93792 .leaf)))) 93761 93761 93793 (.node (.node (.node (.node (.node .leaf 93762 93762 93794 .leaf) 93763 93763 93795 .leaf) 93764 93764 93796 (.node (.node .leaf 93765 93765 93797 .leaf) 93766 93766 93798 .leaf)) 93767 93767 93799 (.node (.node (.node .leaf 93768 93768 93800 .leaf) 93769 93769 93801 .leaf) 93770 93770 93802 (.node .leaf 93771 93771 93803 .leaf))) 93772 93772 93804 (.node (.node (.node (.node .leaf 93773 93773 93805 .leaf) 93774 93774 93806 .leaf) 93775 93775 93807 (.node (.node .leaf 93776 93776 93808 .leaf) 93777 93777 93809 .leaf)) 93778 93778 93810 (.node (.node (.node .leaf 93779 93779 93811 .leaf) 93780 93780 93812 .leaf) 93781 93781 93813 (.node .leaf 93782 93782 93814 .leaf))))) 93783 93783 93815 (.node (.node (.node (.node (.node (.node .leaf 93784 93784 93816 .leaf) 93785 93785 93817 .leaf) 93786 93786 93818 (.node (.node .leaf 93787 93787 93819 .leaf) 93788 93788 93820 .leaf)) 93789 93789 93821 (.node (.node (.node .leaf 93790 93790 93822 .leaf) 93791 93791 93823 .leaf) 125184 125184 125218 (.node .leaf 125185 125185 125219 .leaf))) 125186 125186 125220 (.node (.node (.node (.node .leaf 125187 125187 125221 .leaf) 125188 125188 125222 .leaf) 125189 125189 125223 (.node (.node .leaf 125190 125190 125224 .leaf) 125191 125191 125225 .leaf)) 125192 125192 125226 (.node (.node (.node .leaf 125193 125193 125227 .leaf) 125194 125194 125228 .leaf) 125195 125195 125229 (.node .leaf 125196 125196 125230 .leaf)))) 125197 125197 125231 (.node (.node (.node (.node (.node .leaf 125198 125198 125232 .leaf) 125199 125199 125233 .leaf) 125200 125200 125234 (.node (.node .leaf 125201 125201 125235 .leaf) 125202 125202 125236 .leaf)) 125203 125203 125237 (.node (.node (.node .leaf 125204 125204 125238 .leaf) 125205 125205 125239 .leaf) 125206 125206 125240 (.node .leaf 125207 125207 125241 .leaf))) 125208 125208 125242 (.node (.node (.node (.node .leaf 125209 125209 125243 .leaf) 125210 125210 125244 .leaf) 125211 125211 125245 (.node .leaf 125212 125212 125246 .leaf)) 125213 125213 125247 (.node (.node (.node .leaf 125214 125214 125248 .leaf) 125215 125215 125249 .leaf) 125216 125216 125250 (.node .leaf 125217 125217 125251 .leaf)))))))

/-- Field 13 of UnicodeData.txt, where it is not empty. -/
def lowerTable : RTree Nat := (.node (.node (.node lowerTable0 488 488 489 lowerTable1) 1162 1162 1163 (.node lowerTable2 5037 5037 43901 lowerTable3)) 7790 7790 7791 (.node (.node lowerTable4 8550 8550 8566 lowerTable5) 42604 42604 42605 (.node lowerTable6 66747 66747 66787 lowerTable7)))

def upperTable0 : RTree Nat := (.node (.node (.node (.node (.node (.node (.node (.node .leaf 97 97 65 .leaf) 98 98 66 .leaf) 99 99 67 (.node (.node .leaf 100 100 68 .leaf) 101 101 69 .leaf)) 102 102 70 (.node (.node (.node .leaf 103 103 71 .leaf) 104 104 72 .leaf) 105 105 73 (.node (.node .leaf 106 106 74 .leaf) 107 107 75 .leaf))) 108 108 76 (.node (.node (.node (.node .leaf 109 109 77 .leaf) 110 110 78 .leaf) 111 111 79 (.node (.node .leaf 112 112 80 .leaf) 113 113 81 .leaf)) 114 114 82 (.node (.node (.node .leaf 115 115 83 .leaf) 116 116 84 .leaf) 117 117 85 (.node .leaf 118 118 86 .leaf)))) 119 119 87 (.node (.node (.node (.node (.node .leaf 120 120 88 .leaf) 121 121 89 .leaf) 122 122 90 (.node (.node .leaf 181 181 924 .leaf) 224 224 192 .leaf)) 225 225 193 (.node (.node (.node .leaf 226 226 194 .leaf) 227 227 195 .leaf) 228 228 196 (.node .leaf 229 229 197 .leaf))) 230 230 198 (.node (.node (.node (.node .leaf 231 231 199 .leaf) 232 232 200 .leaf) 233 233 201 (.node (.node .leaf 234 234 202 .leaf) 235 235 203 .leaf)) 236 236 204 (.node (.node (.node .leaf 237 237 205 .leaf) 238 238 206 .leaf) 239 239 207 (.node .leaf 240 240 208 .leaf))))) 241 241 209 (.node (.node (.node (.node (.node (.node .leaf 242 242 210 .leaf) 243 243 211 .leaf) 244 244 212 (.node (.node .leaf 245 245 213 .leaf) 246 246 214 .leaf)) 248 248 216 (.node (.node (.node .leaf 249 249 217 .leaf) 250 250 218 .leaf) 251 251 219 (.node .leaf 252 252 220 .leaf))) 253 253 221 (.node (.node (.node (.node .leaf 254 254 222 .leaf) 255 255 376 .leaf) 257 257 256 (.node (.node .leaf 259 259 258 .leaf) 261 261 260 .leaf)) 263 263 262 (.node (.node (.node .leaf 265 265 264 .leaf) 267 267 266 .leaf) 269 269 268 (.node .leaf 271 271 270 .leaf)))) 273 273 272 (.node (.node (.node (.node (.node .leaf 275 275 274 .leaf) 277 277 276 .leaf) 279 279 278 (.node (.node .leaf 281 281 280 .leaf) 283 283 282 .leaf)) 285 285 284 (.node (.node (.node .leaf 287 287 286 .leaf) 289 289 288 .leaf) 291 291 290 (.node .leaf 293 293 292 .leaf))) 295 295 294 (.node (.node (.node (.node .leaf 297 297 296 .leaf) 299 299 298 .leaf) 301 301 300 (.node (.node .leaf 303 303 302 .leaf) 305 305 73 .leaf)) 307 307 306 (.node (.node (.node .leaf 309 309 308 .leaf) 311 311 310 .leaf) 314 314 313 (.node .leaf 316 316 315 .leaf)))))) 318 318 317 (.node (.node (.node (.node (.node (.node (.node .leaf 320 320 319 .leaf) 322 322 321 .leaf) 324 324 323 (.node (.node .leaf 326 326 325 .leaf) 328 328 327 .leaf)) 331 331 330 (.node (.node (.node .leaf 333 333 332 .leaf) 335 335 334 .leaf) 337 337 336 (.node .leaf 339 339 338 .leaf))) 341 341 340 (.node (.node (.node (.node .leaf 343 343 342 .leaf) 345 345 344 .leaf) 347 347 346 (.node (.node .leaf 349 349 348 .leaf) 351 351 350 .leaf)) 353 353 352 (.node (.node (.node .leaf 355 355 354 .leaf) 357 357 356 .leaf) 359 359 358 (.node .leaf 361 361 360 .leaf)))) 363 363 362 (.node (.node (.node (.node (.node .leaf 365 365 364 .leaf) 367 367 366 .leaf) 369 369 368 (.node (.node .leaf 371 371 370 .leaf) 373 373 372 .leaf)) 375 375 374 (.node (.node (.node .leaf 378 378 377 .leaf) 380 380 379 .leaf) 382 382 381 (.node .leaf 383 383 83 .leaf))) 384 384 579 (.node (.node (.node (.node .leaf 387 387 386 .leaf) 389 389 388 .leaf) 392 392 391 (.node (.node .leaf 396 396 395 .leaf) 402 402 401 .leaf)) 405 405 502 (.node (.node (.node .leaf 409 409 408 .leaf) 410 410 573 .leaf) 414 414 544 (.node .leaf 417 417 416 .leaf))))) 419 419 418 (.node (.node (.node (.node (.node (.node .leaf 421 421 420 .leaf) 424 424 423 .leaf) 429 429 428 (.node (.node .leaf 432 432 431 .leaf) 436 436 435 .leaf)) 438 438 437 (.node (.node (.node .leaf 441 441 440 .leaf) 445 445 444 .leaf) 447 447 503 (.node .leaf 453 453 452 .leaf))) 454 454 452 (.node (.node (.node (.node .leaf 456 456 455 .leaf) 457 457 455 .leaf) 459 459 458 (.node (.node .leaf 460 460 458 .leaf) 462 462 461 .leaf)) 464 464 463 (.node (.node (.node .leaf 466 466 465 .leaf) 468 468 467 .leaf) 470 470 469 (.node .leaf 472 472 471 .leaf)))) 474 474 473 (.node (.node (.node (.node (.node .leaf 476 476 475 .leaf) 477 477 398 .leaf) 479 479 478 (.node (.node .leaf 481 481 480 .leaf) 483 483 482 .leaf)) 485 485 484 (.node (.node (.node .leaf 487 487 486 .leaf) 489 489 488 .leaf) 491 491 490 (.node .leaf 493 493 492 .leaf))) 495 495 494 (.node (.node (.node (.node .leaf 498 498 497 .leaf) 499 499 497 .leaf) 501 501 500 (.node (.node .leaf 505 505 504 .leaf) 507 507 506 .leaf)) 509 509 508 (.node (.node (.node .leaf 511 511 510 .leaf) 513 513 512 .leaf) 515 515 514 (.node .leaf 517 517 516 .leaf)))))))

def upperTable1 : RTree Nat := (.node (.node (.node (.node (.node (.node (.node (.node .leaf 521 521 520 .leaf) 523 523 522 .leaf) 525 525 524 (.node (.node .leaf 527 527 526 .leaf) 529 529 528 .leaf)) 531 531 530 (.node (.node (.node .leaf 533 533 532 .leaf) 535 535 534 .leaf) 537 537 536 (.node .leaf 539 539 538 .leaf))) 541 541 540 (.node (.node (.node (.node .leaf 543 543 542 .leaf) 547 547 546 .leaf) 549 549 548 (.node (.node .leaf 551 551 550 .leaf) 553 553 552 .leaf)) 555 555 554 (.node (.node (.node .leaf 557 557 556 .leaf) 559 559 558 .leaf) 561 561 560 (.node .leaf 563 563 562 .leaf)))) 572 572 571 (.node (.node (.node (.node (.node .leaf 575 575 11390 .leaf) 576 576 11391 .leaf) 578 578 577 (.node (.node .leaf 583 583 582 .leaf) 585 585 584 .leaf)) 587 587 586 (.node (.node (.node .leaf 589 589 588 .leaf) 591 591 590 .leaf) 592 592 11375 (.node .leaf 593 593 11373 .leaf))) 594 594 11376 (.node (.node (.node (.node .leaf 595 595 385 .leaf) 596 596 390 .leaf) 598 598 393 (.node (.node .leaf 599 599 394 .leaf) 601 601 399 .leaf)) 603 603 400 (.node (.node (.node .leaf 604 604 42923 .leaf) 608 608 403 .leaf) 609 609 42924 (.node .leaf 611 611 404 .leaf))))) 613 613 42893 (.node (.node (.node (.node (.node (.node .leaf 614 614 42922 .leaf) 616 616 407 .leaf) 617 617 406 (.node (.node .leaf 618 618 42926 .leaf) 619 619 11362 .leaf)) 620 620 42925 (.node (.node (.node .leaf 623 623 412 .leaf) 625 625 11374 .leaf) 626 626 413 (.node .leaf 629 629 415 .leaf))) 637 637 11364 (.node (.node (.node (.node .leaf 640 640 422 .leaf) 642 642 42949 .leaf) 643 643 425 (.node (.node .leaf 647 647 42929 .leaf) 648 648 430 .leaf)) 649 649 580 (.node (.node (.node .leaf 650 650 433 .leaf) 651 651 434 .leaf) 652 652 581 (.node .leaf 658 658 439 .leaf)))) 669 669 42930 (.node (.node (.node (.node (.node .leaf 670 670 42928 .leaf) 837 837 921 .leaf) 881 881 880 (.node (.node .leaf 883 883 882 .leaf) 887 887 886 .leaf)) 891 891 1021 (.node (.node (.node .leaf 892 892 1022 .leaf) 893 893 1023 .leaf) 940 940 902 (.node .leaf 941 941 904 .leaf))) 942 942 905 (.node (.node (.node (.node .leaf 943 943 906 .leaf) 945 945 913 .leaf) 946 946 914 (.node (.node .leaf 947 947 915 .leaf) 948 948 916 .leaf)) 949 949 917 (.node (.node (.node .leaf 950 950 918 .leaf) 951 951 919 .leaf) 952 952 920 (.node .leaf 953 953 921 .leaf)))))) 954 954 922 (.node (.node (.node (.node (.node (.node (.node .leaf 955 955 923 .leaf) 956 956 924 .leaf) 957 957 925 (.node (.node .leaf 958 958 926 .leaf) 959 959 927 .leaf)) 960 960 928 (.node (.node (.node .leaf 961 961 929 .leaf) 962 962 931 .leaf) 963 963 931 (.node .leaf 964 964 932 .leaf))) 965 965 933 (.node (.node (.node (.node .leaf 966 966 934 .leaf) 967 967 935 .leaf) 968 968 936 (.node (.node .leaf 969 969 937 .leaf) 970 970 938 .leaf)) 971 971 939 (.node (.node (.node .leaf 972 972 908 .leaf) 973 973 910 .leaf) 974 974 911 (.node .leaf 976 976 914 .leaf)))) 977 977 920 (.node (.node (.node (.node (.node .leaf 981 981 934 .leaf) 982 982 928 .leaf) 983 983 975 (.node (.node .leaf 985 985 984 .leaf) 987 987 986 .leaf)) 989 989 988 (.node (.node (.node .leaf 991 991 990 .leaf) 993 993 992 .leaf) 995 995 994 (.node .leaf 997 997 996 .leaf))) 999 999 998 (.node (.node (.node (.node .leaf 1001 1001 1000 .leaf) 1003 1003 1002 .leaf) 1005 1005 1004 (.node (.node .leaf 1007 1007 1006 .leaf) 1008 1008 922 .leaf)) 1009 1009 929 (.node (.node (.node .leaf 1010 1010 1017 .leaf) 1011 1011 895 .leaf) 1013 1013 917 (.node .leaf 1016 1016 1015 .leaf))))) 1019 1019 1018 (.node (.node (.node (.node (.node (.node .leaf 1072 1072 1040 .leaf) 1073 1073 1041 .leaf) 1074 1074 1042 (.node (.node .leaf 1075 1075 1043 .leaf) 1076 1076 1044 .leaf)) 1077 1077 1045 (.node (.node (.node .leaf 1078 1078 1046 .leaf) 1079 1079 1047 .leaf) 1080 1080 1048 (.node .leaf 1081 1081 1049 .leaf))) 1082 1082 1050 (.node (.node (.node (.node .leaf 1083 1083 1051 .leaf) 1084 1084 1052 .leaf) 1085 1085 1053 (.node (.node .leaf 1086 1086 1054 .leaf) 1087 1087 1055 .leaf)) 1088 1088 1056 (.node (.node (.node .leaf 1089 1089 1057 .leaf) 1090 1090 1058 .leaf) 1091 1091 1059 (.node .leaf 1092 1092 1060 .leaf)))) 1093 1093 1061 (.node (.node (.node (.node (.node .leaf 1094 1094 1062 .leaf) 1095 1095 1063 .leaf) 1096 1096 1064 (.node (.node .leaf 1097 1097 1065 .leaf) 1098 1098 1066 .leaf)) 1099 1099 1067 (.node (.node (.node .leaf 1100 1100 1068 .leaf) 1101 1101 1069 .leaf) 1102 1102 1070 (.node .leaf 1103 1103 1071 .leaf))) 1104 1104 1024 (.node (.node (.node (.node .leaf 1105 1105 1025 .leaf) 1106 1106 1026 .leaf) 1107 1107 1027 (.node (.node .leaf 1108 1108 1028 .leaf) 1109 1109 1029 .leaf)) 1110 1110 1030 (.node (.node (.node .leaf 1111 1111 1031 .leaf) 1112 1112 1032 .leaf) 1113 1113 1033 (.node .leaf 1114 1114 1034 .leaf)))))))

def upperTable2 : RTree Nat := (.node (.node (.node (.node (.node (.node (.node (.node .leaf 1116 1116 1036 .leaf) 1117 1117 1037 .leaf) 1118 1118 1038 (.node (.node .leaf 1119 1119 1039 .leaf) 1121 1121 1120 .leaf)) 1123 1123 1122 (.node (.node (.node .leaf 1125 1125 1124 .leaf) 1127 1127 1126 .leaf) 1129 1129 1128 (.node (.node .leaf 1131 1131 1130 .leaf) 1133 1133 1132 .leaf))) 1135 1135 1134 (.node (.node (.node (.node .leaf 1137 1137 1136 .leaf) 1139 1139 1138 .leaf) 1141 1141 1140 (.node (.node .leaf 1143 1143 1142 .leaf) 1145 1145 1144 .leaf)) 1147 1147 1146 (.node (.node (.node .leaf 1149 1149 1148 .leaf) 1151 1151 1150 .leaf) 1153 1153 1152 (.node .leaf 1163 1163 1162 .leaf)))) 1165 1165 1164 (.node (.node (.node (.node (.node .leaf 1167 1167 1166 .leaf) 1169 1169 1168 .leaf) 1171 1171 1170 (.node (.node .leaf 1173 1173 1172 .leaf) 1175 1175 1174 .leaf)) 1177 1177 1176 (.node (.node (.node .leaf 1179 1179 1178 .leaf) 1181 1181 1180 .leaf) 1183 1183 1182 (.node .leaf 1185 1185 1184 .leaf))) 1187 1187 1186 (.node (.node (.node (.node .leaf 1189 1189 1188 .leaf) 1191 1191 1190 .leaf) 1193 1193 1192 (.node (.node .leaf 1195 1195 1194 .leaf) 1197 1197 1196 .leaf)) 1199 1199 1198 (.node (.node (.node .leaf 1201 1201 1200 .leaf) 1203 1203 1202 .leaf) 1205 1205 1204 (.node .leaf 1207 1207 1206 .leaf))))) 1209 1209 1208 (.node (.node (.node (.node (.node (.node .leaf 1211 1211 1210 .leaf) 1213 1213 1212 .leaf) 1215 1215 1214 (.node (.node .leaf 1218 1218 1217 .leaf) 1220 1220 1219 .leaf)) 1222 1222 1221 (.node (.node (.node .leaf 1224 1224 1223 .leaf) 1226 1226 1225 .leaf) 1228 1228 1227 (.node .leaf 1230 1230 1229 .leaf))) 1231 1231 1216 (.node (.node (.node (.node .leaf 1233 1233 1232 .leaf) 1235 1235 1234 .leaf) 1237 1237 1236 (.node (.node .leaf 1239 1239 1238 .leaf) 1241 1241 1240 .leaf)) 1243 1243 1242 (.node (.node (.node .leaf 1245 1245 1244 .leaf) 1247 1247 1246 .leaf) 1249 1249 1248 (.node .leaf 1251 1251 1250 .leaf)))) 1253 1253 1252 (.node (.node (.node (.node (.node .leaf 1255 1255 1254 .leaf) 1257 1257 1256 .leaf) 1259 1259 1258 (.node (.node .leaf 1261 1261 1260 .leaf) 1263 1263 1262 .leaf)) 1265 1265 1264 (.node (.node (.node .leaf 1267 1267 1266 .leaf) 1269 1269 1268 .leaf) 1271 1271 1270 (.node .leaf 1273 1273 1272 .leaf))) 1275 1275 1274 (.node (.node (.node (.node .leaf 1277 1277 1276 .leaf) 1279 1279 1278 .leaf) 1281 1281 1280 (.node (.node .leaf 1283 1283 1282 .leaf) 1285 1285 1284 .leaf)) 1287 1287 1286 (.node (.node (.node .leaf 1289 1289 1288 .leaf) 1291 1291 1290 .leaf) 1293 1293 1292 (.node .leaf 1295 1295 1294 .leaf)))))) 1297 1297 1296 (.node (.node (.node (.node (.node (.node (.node .leaf 1299 1299 1298 .leaf) 1301 1301 1300 .leaf) 1303 1303 1302 (.node (.node .leaf 1305 1305 1304 .leaf) 1307 1307 1306 .leaf)) 1309 1309 1308 (.node (.node (.node .leaf 1311 1311 1310 .leaf) 1313 1313 1312 .leaf) 1315 1315 1314 (.node .leaf 1317 1317 1316 .leaf))) 1319 1319 1318 (.node (.node (.node (.node .leaf 1321 1321 1320 .leaf) 1323 1323 1322 .leaf) 1325 1325 1324 (.node (.node .leaf 1327 1327 1326 .leaf) 1377 1377 1329 .leaf)) 1378 1378 1330 (.node (.node (.node .leaf 1379 1379 1331 .leaf) 1380 1380 1332 .leaf) 1381 1381 1333 (.node .leaf 1382 1382 1334 .leaf)))) 1383 1383 1335 (.node (.node (.node (.node (.node .leaf 1384 1384 1336 .leaf) 1385 1385 1337 .leaf) 1386 1386 1338 (.node (.node .leaf 1387 1387 1339 .leaf) 1388 1388 1340 .leaf)) 1389 1389 1341 (.node (.node (.node .leaf 1390 1390 1342 .leaf) 1391 1391 1343 .leaf) 1392 1392 1344 (.node .leaf 1393 1393 1345 .leaf))) 1394 1394 1346 (.node (.node (.node (.node .leaf 1395 1395 1347 .leaf) 1396 1396 1348 .leaf) 1397 1397 1349 (.node (.node .leaf 1398 1398 1350 .leaf) 1399 1399 1351 .leaf)) 1400 1400 1352 (.node (.node (.node .leaf 1401 1401 1353 .leaf) 1402 1402 1354 .leaf) 1403 1403 1355 (.node .leaf 1404 1404 1356 .leaf))))) 1405 1405 1357 (.node (.node (.node (.node (.node (.node .leaf 1406 1406 1358 .leaf) 1407 1407 1359 .leaf) 1408 1408 1360 (.node (.node .leaf 1409 1409 1361 .leaf) 1410 1410 1362 .leaf)) 1411 1411 1363 (.node (.node (.node .leaf 1412 1412 1364 .leaf) 1413 1413 1365 .leaf) 1414 1414 1366 (.node .leaf 4304 4304 7312 .leaf))) 4305 4305 7313 (.node (.node (.node (.node .leaf 4306 4306 7314 .leaf) 4307 4307 7315 .leaf) 4308 4308 7316 (.node (.node .leaf 4309 4309 7317 .leaf) 4310 4310 7318 .leaf)) 4311 4311 7319 (.node (.node (.node .leaf 4312 4312 7320 .leaf) 4313 4313 7321 .leaf) 4314 4314 7322 (.node .leaf 4315 4315 7323 .leaf)))) 4316 4316 7324 (.node (.node (.node (.node (.node .leaf 4317 4317 7325 .leaf) 4318 4318 7326 .leaf) 4319 4319 7327 (.node (.node .leaf 4320 4320 7328 .leaf) 4321 4321 7329 .leaf)) 4322 4322 7330 (.node (.node (.node .leaf 4323 4323 7331 .leaf) 4324 4324 7332 .leaf) 4325 4325 7333 (.node .leaf 4326 4326 7334 .leaf))) 4327 4327 7335 (.node (.node (.node (.node .leaf 4328 4328 7336 .leaf) 4329 4329 7337 .leaf) 4330 4330 7338 (.node (.node .leaf 4331 4331 7339 .leaf) 4332 4332 7340 .leaf)) 4333 4333 7341 (.node (.node (.node .leaf 4334 4334 7342 .leaf) 4335 4335 7343 .leaf) 4336 4336 7344 (.node .leaf 4337 4337 7345 .leaf)))))))

def upperTable3 : RTree Nat := (.node (.node (.node (.node (.node (.node (.node (.node .leaf 4339 4339 7347 .leaf) 4340 4340 7348 .leaf) 4341 4341 7349 (.node (.node .leaf 4342 4342 7350 .leaf) 4343 4343 7351 .leaf)) 4344 4344 7352 (.node (.node (.node .leaf 4345 4345 7353 .leaf) 4346 4346 7354 .leaf) 4349 4349 7357 (.node .leaf 4350 4350 7358 .leaf))) 4351 4351 7359 (.node (.node (.node (.node .leaf 5112 5112 5104 .leaf) 5113 5113 5105 .leaf) 5114 5114 5106 (.node (.node .leaf 5115 5115 5107 .leaf) 5116 5116 5108 .leaf)) 5117 5117 5109 (.node (.node (.node .leaf 7296 7296 1042 .leaf) 7297 7297 1044 .leaf) 7298 7298 1054 (.node .leaf 7299 7299 1057 .leaf)))) 7300 7300 1058 (.node (.node (.node (.node (.node .leaf 7301 7301 1058 .leaf) 7302 7302 1066 .leaf) 7303 7303 1122 (.node (.node .leaf 7304 7304 42570 .leaf) 7545 7545 42877 .leaf)) 7549 7549 11363 (.node (.node (.node .leaf 7566 7566 42950 .leaf) 7681 7681 7680 .leaf) 7683 7683 7682 (.node .leaf 7685 7685 7684 .leaf))) 7687 7687 7686 (.node (.node (.node (.node .leaf 7689 7689 7688 .leaf) 7691 7691 7690 .leaf) 7693 7693 7692 (.node (.node .leaf 7695 7695 7694 .leaf) 7697 7697 7696 .leaf)) 7699 7699 7698 (.node (.node (.node .leaf 7701 7701 7700 .leaf) 7703 7703 7702 .leaf) 7705 7705 7704 (.node .leaf 7707 7707 7706 .leaf))))) 7709 7709 7708 (.node (.node (.node (.node (.node (.node .leaf 7711 7711 7710 .leaf) 7713 7713 7712 .leaf) 7715 7715 7714 (.node (.node .leaf 7717 7717 7716 .leaf) 7719 7719 7718 .leaf)) 7721 7721 7720 (.node (.node (.node .leaf 7723 7723 7722 .leaf) 7725 7725 7724 .leaf) 7727 7727 7726 (.node .leaf 7729 7729 7728 .leaf))) 7731 7731 7730 (.node (.node (.node (.node .leaf 7733 7733 7732 .leaf) 7735 7735 7734 .leaf) 7737 7737 7736 (.node (.node .leaf 7739 7739 7738 .leaf) 7741 7741 7740 .leaf)) 7743 7743 7742 (.node (.node (.node .leaf 7745 7745 7744 .leaf) 7747 7747 7746 .leaf) 7749 7749 7748 (.node .leaf 7751 7751 7750 .leaf)))) 7753 7753 7752 (.node (.node (.node (.node (.node .leaf 7755 7755 7754 .leaf) 7757 7757 7756 .leaf) 7759 7759 7758 (.node (.node .leaf 7761 7761 7760 .leaf) 7763 7763 7762 .leaf)) 7765 7765 7764 (.node (.node (.node .leaf 7767 7767 7766 .leaf) 7769 7769 7768 .leaf) 7771 7771 7770 (.node .leaf 7773 7773 7772 .leaf))) 7775 7775 7774 (.node (.node (.node (.node .leaf 7777 7777 7776 .leaf) 7779 7779 7778 .leaf) 7781 7781 7780 (.node (.node .leaf 7783 7783 7782 .leaf) 7785 7785 7784 .leaf)) 7787 7787 7786 (.node (.node (.node .leaf 7789 7789 7788 .leaf) 7791 7791 7790 .leaf) 7793 7793 7792 (.node .leaf 7795 7795 7794 .leaf)))))) 7797 7797 7796 (.node (.node (.node (.node (.node (.node (.node .leaf 7799 7799 7798 .leaf) 7801 7801 7800 .leaf) 7803 7803 7802 (.node (.node .leaf 7805 7805 7804 .leaf) 7807 7807 7806 .leaf)) 7809 7809 7808 (.node (.node (.node .leaf 7811 7811 7810 .leaf) 7813 7813 7812 .leaf) 7815 7815 7814 (.node .leaf 7817 7817 7816 .leaf))) 7819 7819 7818 (.node (.node (.node (.node .leaf 7821 7821 7820 .leaf) 7823 7823 7822 .leaf) 7825 7825 7824 (.node (.node .leaf 7827 7827 7826 .leaf) 7829 7829 7828 .leaf)) 7835 7835 7776 (.node (.node (.node .leaf 7841 7841 7840 .leaf) 7843 7843 7842 .leaf) 7845 7845 7844 (.node .leaf 7847 7847 7846 .leaf)))) 7849 7849 7848 (.node (.node (.node (.node (.node .leaf 7851 7851 7850 .leaf) 7853 7853 7852 .leaf) 7855 7855 7854 (.node (.node .leaf 7857 7857 7856 .leaf) 7859 7859 7858 .leaf)) 7861 7861 7860 (.node (.node (.node .leaf 7863 7863 7862 .leaf) 7865 7865 7864 .leaf) 7867 7867 7866 (.node .leaf 7869 7869 7868 .leaf))) 7871 7871 7870 (.node (.node (.node (.node .leaf 7873 7873 7872 .leaf) 7875 7875 7874 .leaf) 7877 7877 7876 (.node (.node .leaf 7879 7879 7878 .leaf) 7881 7881 7880 .leaf)) 7883 7883 7882 (.node (.node (.node .leaf 7885 7885 7884 .leaf) 7887 7887 7886 .leaf) 7889 7889 7888 (.node .leaf 7891 7891 7890 .leaf))))) 7893 7893 7892 (.node (.node (.node (.node (.node (.node .leaf 7895 7895 7894 .leaf) 7897 7897 7896 .leaf) 7899 7899 7898 (.node (.node .leaf 7901 7901 7900 .leaf) 7903 7903 7902 .leaf)) 7905 7905 7904 (.node (.node (.node .leaf 7907 7907 7906 .leaf) 7909 7909 7908 .leaf) 7911 7911 7910 (.node .leaf 7913 7913 7912 .leaf))) 7915 7915 7914 (.node (.node (.node (.node .leaf 7917 7917 7916 .leaf) 7919 7919 7918 .leaf) 7921 7921 7920 (.node (.node .leaf 7923 7923 7922 .leaf) 7925 7925 7924 .leaf)) 7927 7927 7926 (.node (.node (.node .leaf 7929 7929 7928 .leaf) 7931 7931 7930 .leaf) 7933 7933 7932 (.node .leaf 7935 7935 7934 .leaf)))) 7936 7936 7944 (.node (.node (.node (.node (.node .leaf 7937 7937 7945 .leaf) 7938 7938 7946 .leaf) 7939 7939 7947 (.node (.node .leaf 7940 7940 7948 .leaf) 7941 7941 7949 .leaf)) 7942 7942 7950 (.node (.node (.node .leaf 7943 7943 7951 .leaf) 7952 7952 7960 .leaf) 7953 7953 7961 (.node .leaf 7954 7954 7962 .leaf))) 7955 7955 7963 (.node (.node (.node (.node .leaf 7956 7956 7964 .leaf) 7957 7957 7965 .leaf) 7968 7968 7976 (.node (.node .leaf 7969 7969 7977 .leaf) 7970 7970 7978 .leaf)) 7971 7971 7979 (.node (.node (.node .leaf 7972 7972 7980 .leaf) 7973 7973 7981 .leaf) 7974 7974 7982 (.node .leaf 7975 7975 7983 .leaf)))))))

def upperTable4 : RTree Nat := (.node (.node (.node (.node (.node (.node (.node (.node .leaf 7985 7985 7993 .leaf) 7986 7986 7994 .leaf) 7987 7987 7995 (.node (.node .leaf 7988 7988 7996 .leaf) 7989 7989 7997 .leaf)) 7990 7990 7998 (.node (.node (.node .leaf 7991 7991 7999 .leaf) 8000 8000 8008 .leaf) 8001 8001 8009 (.node (.node .leaf 8002 8002 8010 .leaf) 8003 8003 8011 .leaf))) 8004 8004 8012 (.node (.node (.node (.node .leaf 8005 8005 8013 .leaf) 8017 8017 8025 .leaf) 8019 8019 8027 (.node (.node .leaf 8021 8021 8029 .leaf) 8023 8023 8031 .leaf)) 8032 8032 8040 (.node (.node (.node .leaf 8033 8033 8041 .leaf) 8034 8034 8042 .leaf) 8035 8035 8043 (.node .leaf 8036 8036 8044 .leaf)))) 8037 8037 8045 (.node (.node (.node (.node (.node .leaf 8038 8038 8046 .leaf) 8039 8039 8047 .leaf) 8048 8048 8122 (.node (.node .leaf 8049 8049 8123 .leaf) 8050 8050 8136 .leaf)) 8051 8051 8137 (.node (.node (.node .leaf 8052 8052 8138 .leaf) 8053 8053 8139 .leaf) 8054 8054 8154 (.node .leaf 8055 8055 8155 .leaf))) 8056 8056 8184 (.node (.node (.node (.node .leaf 8057 8057 8185 .leaf) 8058 8058 8170 .leaf) 8059 8059 8171 (.node (.node .leaf 8060 8060 8186 .leaf) 8061 8061 8187 .leaf)) 8064 8064 8072 (.node (.node (.node .leaf 8065 8065 8073 .leaf) 8066 8066 8074 .leaf) 8067 8067 8075 (.node .leaf 8068 8068 8076 .leaf))))) 8069 8069 8077 (.node (.node (.node (.node (.node (.node .leaf 8070 8070 8078 .leaf) 8071 8071 8079 .leaf) 8080 8080 8088 (.node (.node .leaf 8081 8081 8089 .leaf) 8082 8082 8090 .leaf)) 8083 8083 8091 (.node (.node (.node .leaf 8084 8084 8092 .leaf) 8085 8085 8093 .leaf) 8086 8086 8094 (.node .leaf 8087 8087 8095 .leaf))) 8096 8096 8104 (.node (.node (.node (.node .leaf 8097 8097 8105 .leaf) 8098 8098 8106 .leaf) 8099 8099 8107 (.node (.node .leaf 8100 8100 8108 .leaf) 8101 8101 8109 .leaf)) 8102 8102 8110 (.node (.node (.node .leaf 8103 8103 8111 .leaf) 8112 8112 8120 .leaf) 8113 8113 8121 (.node .leaf 8115 8115 8124 .leaf)))) 8126 8126 921 (.node (.node (.node (.node (.node .leaf 8131 8131 8140 .leaf) 8144 8144 8152 .leaf) 8145 8145 8153 (.node (.node .leaf 8160 8160 8168 .leaf) 8161 8161 8169 .leaf)) 8165 8165 8172 (.node (.node (.node .leaf 8179 8179 8188 .leaf) 8526 8526 8498 .leaf) 8560 8560 8544 (.node .leaf 8561 8561 8545 .leaf))) 8562 8562 8546 (.node (.node (.node (.node .leaf 8563 8563 8547 .leaf) 8564 8564 8548 .leaf) 8565 8565 8549 (.node (.node .leaf 8566 8566 8550 .leaf) 8567 8567 8551 .leaf)) 8568 8568 8552 (.node (.node (.node .leaf 8569 8569 8553 .leaf) 8570 8570 8554 .leaf) 8571 8571 8555 (.node .leaf 8572 8572 8556 .leaf)))))) 8573 8573 8557 (.node (.node (.node (.node (.node (.node (.node .leaf 8574 8574 8558 .leaf) 8575 8575 8559 .leaf) 8580 8580 8579 (.node (.node .leaf 9424 9424 9398 .leaf) 9425 9425 9399 .leaf)) 9426 9426 9400 (.node (.node (.node .leaf 9427 9427 9401 .leaf) 9428 9428 9402 .leaf) 9429 9429 9403 (.node .leaf 9430 9430 9404 .leaf))) 9431 9431 9405 (.node (.node (.node (.node .leaf 9432 9432 9406 .leaf) 9433 9433 9407 .leaf) 9434 9434 9408 (.node (.node .leaf 9435 9435 9409 .leaf) 9436 9436 9410 .leaf)) 9437 9437 9411 (.node (.node (.node .leaf 9438 9438 9412 .leaf) 9439 9439 9413 .leaf) 9440 9440 9414 (.node .leaf 9441 9441 9415 .leaf)))) 9442 9442 9416 (.node (.node (.node (.node (.node .leaf 9443 9443 9417 .leaf) 9444 9444 9418 .leaf) 9445 9445 9419 (.node (.node .leaf 9446 9446 9420 .leaf) 9447 9447 9421 .leaf)) 9448 9448 9422 (.node (.node (.node .leaf 9449 9449 9423 .leaf) 11312 11312 11264 .leaf) 11313 11313 11265 (.node .leaf 11314 11314 11266 .leaf))) 11315 11315 11267 (.node (.node (.node (.node .leaf 11316 11316 11268 .leaf) 11317 11317 11269 .leaf) 11318 11318 11270 (.node (.node .leaf 11319 11319 11271 .leaf) 11320 11320 11272 .leaf)) 11321 11321 11273 (.node (.node (.node .leaf 11322 11322 11274 .leaf) 11323 11323 11275 .leaf) 11324 11324 11276 (.node .leaf 11325 11325 11277 .leaf))))) 11326 11326 11278 (.node (.node (.node (.node (.node (.node .leaf 11327 11327 11279 .leaf) 11328 11328 11280 .leaf) 11329 11329 11281 (.node (.node .leaf 11330 11330 11282 .leaf) 11331 11331 11283 .leaf)) 11332 11332 11284 (.node (.node (.node .leaf 11333 11333 11285 .leaf) 11334 11334 11286 .leaf) 11335 11335 11287 (.node .leaf 11336 11336 11288 .leaf))) 11337 11337 11289 (.node (.node (.node (.node .leaf 11338 11338 11290 .leaf) 11339 11339 11291 .leaf) 11340 11340 11292 (.node (.node .leaf 11341 11341 11293 .leaf) 11342 11342 11294 .leaf)) 11343 11343 11295 (.node (.node (.node .leaf 11344 11344 11296 .leaf) 11345 11345 11297 .leaf) 11346 11346 11298 (.node .leaf 11347 11347 11299 .leaf)))) 11348 11348 11300 (.node (.node (.node (.node (.node .leaf 11349 11349 11301 .leaf) 11350 11350 11302 .leaf) 11351 11351 11303 (.node (.node .leaf 11352 11352 11304 .leaf) 11353 11353 11305 .leaf)) 11354 11354 11306 (.node (.node (.node .leaf 11355 11355 11307 .leaf) 11356 11356 11308 .leaf) 11357 11357 11309 (.node .leaf 11358 11358 11310 .leaf))) 11361 11361 11360 (.node (.node (.node (.node .leaf 11365 11365 570 .leaf) 11366 11366 574 .leaf) 11368 11368 11367 (.node (.node .leaf 11370 11370 11369 .leaf) 11372 11372 11371 .leaf)) 11379 11379 11378 (.node (.node (.node .leaf 11382 11382 11381 .leaf) 11393 11393 11392 .leaf) 11395 11395 11394 (.node .leaf 11397 11397 11396 .leaf)))))))

def upperTable5 : RTree Nat := (.node (.node (.node (.node (.node (.node (.node (.node .leaf 11401 11401 11400 .leaf) 11403 11403 11402 .leaf) 11405 11405 11404 (.node (.node .leaf 11407 11407 11406 .leaf) 11409 11409 11408 .leaf)) 11411 11411 11410 (.node (.node (.node .leaf 11413 11413 11412 .leaf) 11415 11415 11414 .leaf) 11417 11417 11416 (.node .leaf 11419 11419 11418 .leaf))) 11421 11421 11420 (.node (.node (.node (.node .leaf 11423 11423 11422 .leaf) 11425 11425 11424 .leaf) 11427 11427 11426 (.node (.node .leaf 11429 11429 11428 .leaf) 11431 11431 11430 .leaf)) 11433 11433 11432 (.node (.node (.node .leaf 11435 11435 11434 .leaf) 11437 11437 11436 .leaf) 11439 11439 11438 (.node .leaf 11441 11441 11440 .leaf)))) 11443 11443 11442 (.node (.node (.node (.node (.node .leaf 11445 11445 11444 .leaf) 11447 11447 11446 .leaf) 11449 11449 11448 (.node (.node .leaf 11451 11451 11450 .leaf) 11453 11453 11452 .leaf)) 11455 11455 11454 (.node (.node (.node .leaf 11457 11457 11456 .leaf) 11459 11459 11458 .leaf) 11461 11461 11460 (.node .leaf 11463 11463 11462 .leaf))) 11465 11465 11464 (.node (.node (.node (.node .leaf 11467 11467 11466 .leaf) 11469 11469 11468 .leaf) 11471 11471 11470 (.node (.node .leaf 11473 11473 11472 .leaf) 11475 11475 11474 .leaf)) 11477 11477 11476 (.node (.node (.node .leaf 11479 11479 11478 .leaf) 11481 11481 11480 .leaf) 11483 11483 11482 (.node .leaf 11485 11485 11484 .leaf))))) 11487 11487 11486 (.node (.node (.node (.node (.node (.node .leaf 11489 11489 11488 .leaf) 11491 11491 11490 .leaf) 11500 11500 11499 (.node (.node .leaf 11502 11502 11501 .leaf) 11507 11507 11506 .leaf)) 11520 11520 4256 (.node (.node (.node .leaf 11521 11521 4257 .leaf) 11522 11522 4258 .leaf) 11523 11523 4259 (.node .leaf 11524 11524 4260 .leaf))) 11525 11525 4261 (.node (.node (.node (.node .leaf 11526 11526 4262 .leaf) 11527 11527 4263 .leaf) 11528 11528 4264 (.node (.node .leaf 11529 11529 4265 .leaf) 11530 11530 4266 .leaf)) 11531 11531 4267 (.node (.node (.node .leaf 11532 11532 4268 .leaf) 11533 11533 4269 .leaf) 11534 11534 4270 (.node .leaf 11535 11535 4271 .leaf)))) 11536 11536 4272 (.node (.node (.node (.node (.node .leaf 11537 11537 4273 .leaf) 11538 11538 4274 .leaf) 11539 11539 4275 (.node (.node .leaf 11540 11540 4276 .leaf) 11541 11541 4277 .leaf)) 11542 11542 4278 (.node (.node (.node .leaf 11543 11543 4279 .leaf) 11544 11544 4280 .leaf) 11545 11545 4281 (.node .leaf 11546 11546 4282 .leaf))) 11547 11547 4283 (.node (.node (.node (.node .leaf 11548 11548 4284 .leaf) 11549 11549 4285 .leaf) 11550 11550 4286 (.node (.node .leaf 11551 11551 4287 .leaf) 11552 11552 4288 .leaf)) 11553 11553 4289 (.node (.node (.node .leaf 11554 11554 4290 .leaf) 11555 11555 4291 .leaf) 11556 11556 4292 (.node .leaf 11557 11557 4293 .leaf)))))) 11559 11559 4295 (.node (.node (.node (.node (.node (.node (.node .leaf 11565 11565 4301 .leaf) 42561 42561 42560 .leaf) 42563 42563 42562 (.node (.node .leaf 42565 42565 42564 .leaf) 42567 42567 42566 .leaf)) 42569 42569 42568 (.node (.node (.node .leaf 42571 42571 42570 .leaf) 42573 42573 42572 .leaf) 42575 42575 42574 (.node .leaf 42577 42577 42576 .leaf))) 42579 42579 42578 (.node (.node (.node (.node .leaf 42581 42581 42580 .leaf) 42583 42583 42582 .leaf) 42585 42585 42584 (.node (.node .leaf 42587 42587 42586 .leaf) 42589 42589 42588 .leaf)) 42591 42591 42590 (.node (.node (.node .leaf 42593 42593 42592 .leaf) 42595 42595 42594 .leaf) 42597 42597 42596 (.node .leaf 42599 42599 42598 .leaf)))) 42601 42601 42600 (.node (.node (.node (.node (.node .leaf 42603 42603 42602 .leaf) 42605 42605 42604 .leaf) 42625 42625 42624 (.node (.node .leaf 42627 42627 42626 .leaf) 42629 42629 42628 .leaf)) 42631 42631 42630 (.node (.node (.node .leaf 42633 42633 42632 .leaf) 42635 42635 42634 .leaf) 42637 42637 42636 (.node .leaf 42639 42639 42638 .leaf))) 42641 42641 42640 (.node (.node (.node (.node .leaf 42643 42643 42642 .leaf) 42645 42645 42644 .leaf) 42647 42647 42646 (.node (.node .leaf 42649 42649 42648 .leaf) 42651 42651 42650 .leaf)) 42787 42787 42786 (.node (.node (.node .leaf 42789 42789 42788 .leaf) 42791 42791 42790 .leaf) 42793 42793 42792 (.node .leaf 42795 42795 42794 .leaf))))) 42797 42797 42796 (.node (.node (.node (.node (.node (.node .leaf 42799 42799 42798 .leaf) 42803 42803 42802 .leaf) 42805 42805 42804 (.node (.node .leaf 42807 42807 42806 .leaf) 42809 42809 42808 .leaf)) 42811 42811 42810 (.node (.node (.node .leaf 42813 42813 42812 .leaf) 42815 42815 42814 .leaf) 42817 42817 42816 (.node .leaf 42819 42819 42818 .leaf))) 42821 42821 42820 (.node (.node (.node (.node .leaf 42823 42823 42822 .leaf) 42825 42825 42824 .leaf) 42827 42827 42826 (.node (.node .leaf 42829 42829 42828 .leaf) 42831 42831 42830 .leaf)) 42833 42833 42832 (.node (.node (.node .leaf 42835 42835 42834 .leaf) 42837 42837 42836 .leaf) 42839 42839 42838 (.node .leaf 42841 42841 42840 .leaf)))) 42843 42843 42842 (.node (.node (.node (.node (.node .leaf 42845 42845 42844 .leaf) 42847 42847 42846 .leaf) 42849 42849 42848 (.node (.node .leaf 42851 42851 42850 .leaf) 42853 42853 42852 .leaf)) 42855 42855 42854 (.node (.node (.node .leaf 42857 42857 42856 .leaf) 42859 42859 42858 .leaf) 42861 42861 42860 (.node .leaf 42863 42863 42862 .leaf))) 42874 42874 42873 (.node (.node (.node (.node .leaf 42876 42876 42875 .leaf) 42879 42879 42878 .leaf) 42881 42881 42880 (.node (.node .leaf 42883 42883 42882 .leaf) 42885 42885 42884 .leaf)) 42887 42887 42886 (.node (.node (.node .leaf 42892 42892 42891 .leaf) 42897 42897 42896 .leaf) 42899 42899 42898 (.node .leaf 42900 42900 42948 .leaf)))))))

def upperTable6 : RTree Nat := (.node (.node (.node (.node (.node (.node (.node (.node .leaf 42905 42905 42904 .leaf) 42907 42907 42906 .leaf) 42909 42909 42908 (.node (.node .leaf 42911 42911 42910 .leaf) 42913 42913 42912 .leaf)) 42915 42915 42914 (.node (.node (.node .leaf 42917 42917 42916 .leaf) 42919 42919 42918 .leaf) 42921 42921 42920 (.node .leaf 42933 42933 42932 .leaf))) 42935 42935 42934 (.node (.node (.node (.node .leaf 42937 42937 42936 .leaf) 42939 42939 42938 .leaf) 42941 42941 42940 (.node (.node .leaf 42943 42943 42942 .leaf) 42947 42947 42946 .leaf)) 42952 42952 42951 (.node (.node (.node .leaf 42954 42954 42953 .leaf) 42998 42998 42997 .leaf) 43859 43859 42931 (.node .leaf 43888 43888 5024 .leaf)))) 43889 43889 5025 (.node (.node (.node (.node (.node .leaf 43890 43890 5026 .leaf) 43891 43891 5027 .leaf) 43892 43892 5028 (.node (.node .leaf 43893 43893 5029 .leaf) 43894 43894 5030 .leaf)) 43895 43895 5031 (.node (.node (.node .leaf 43896 43896 5032 .leaf) 43897 43897 5033 .leaf) 43898 43898 5034 (.node .leaf 43899 43899 5035 .leaf))) 43900 43900 5036 (.node (.node (.node (.node .leaf 43901 43901 5037 .leaf) 43902 43902 5038 .leaf) 43903 43903 5039 (.node (.node .leaf 43904 43904 5040 .leaf) 43905 43905 5041 .leaf)) 43906 43906 5042 (.node (.node (.node .leaf 43907 43907 5043 .leaf) 43908 43908 5044 .leaf) 43909 43909 5045 (.node .leaf 43910 43910 5046 .leaf))))) 43911 43911 5047 (.node (.node (.node (.node (.node (.node .leaf 43912 43912 5048 .leaf) 43913 43913 5049 .leaf) 43914 43914 5050 (.node (.node .leaf 43915 43915 5051 .leaf) 43916 43916 5052 .leaf)) 43917 43917 5053 (.node (.node (.node .leaf 43918 43918 5054 .leaf) 43919 43919 5055 .leaf) 43920 43920 5056 (.node .leaf 43921 43921 5057 .leaf))) 43922 43922 5058 (.node (.node (.node (.node .leaf 43923 43923 5059 .leaf) 43924 43924 5060 .leaf) 43925 43925 5061 (.node (.node .leaf 43926 43926 5062 .leaf) 43927 43927 5063 .leaf)) 43928 43928 5064 (.node (.node (.node .leaf 43929 43929 5065 .leaf) 43930 43930 5066 .leaf) 43931 43931 5067 (.node .leaf 43932 43932 5068 .leaf)))) 43933 43933 5069 (.node (.node (.node (.node (.node .leaf 43934 43934 5070 .leaf) 43935 43935 5071 .leaf) 43936 43936 5072 (.node (.node .leaf 43937 43937 5073 .leaf) 43938 43938 5074 .leaf)) 43939 43939 5075 (.node (.node (.node .leaf 43940 43940 5076 .leaf) 43941 43941 5077 .leaf) 43942 43942 5078 (.node .leaf 43943 43943 5079 .leaf))) 43944 43944 5080 (.node (.node (.node (.node .leaf 43945 43945 5081 .leaf) 43946 43946 5082 .leaf) 43947 43947 5083 (.node (.node .leaf 43948 43948 5084 .leaf) 43949 43949 5085 .leaf)) 43950 43950 5086 (.node (.node (.node .leaf 43951 43951 5087 .leaf) 43952 43952 5088 .leaf) 43953 43953 5089 (.node .leaf 43954 43954 5090 .leaf)))))) 43955 43955 5091 (.node (.node (.node (.node (.node (.node (.node .leaf 43956 43956 5092 .leaf) 43957 43957 5093 .leaf) 43958 43958 5094 (.node (.node .leaf 43959 43959 5095 .leaf) 43960 43960 5096 .leaf)) 43961 43961 5097 (.node (.node (.node .leaf 43962 43962 5098 .leaf) 43963 43963 5099 .leaf) 43964 43964 5100 (.node .leaf 43965 43965 5101 .leaf))) 43966 43966 5102 (.node (.node (.node (.node .leaf 43967 43967 5103 .leaf) 65345 65345 65313 .leaf) 65346 65346 65314 (.node (.node .leaf 65347 65347 65315 .leaf) 65348 65348 65316 .leaf)) 65349 65349 65317 (.node (.node (.node .leaf 65350 65350 65318 .leaf) 65351 65351 65319 .leaf) 65352 65352 65320 (.node .leaf 65353 65353 65321 .leaf)))) 65354 65354 65322 (.node (.node (.node (.node (.node .leaf 65355 65355 65323 .leaf) 65356 65356 65324 .leaf) 65357 65357 65325 (.node (.node .leaf 65358 65358 65326 .leaf) 65359 65359 65327 .leaf)) 65360 65360 65328 (.node (.node (.node .leaf 65361 65361 65329 .leaf) 65362 65362 65330 .leaf) 65363 65363 65331 (.node .leaf 65364 65364 65332 .leaf))) 65365 65365 65333 (.node (.node (.node (.node .leaf 65366 65366 65334 .leaf) 65367 65367 65335 .leaf) 65368 65368 65336 (.node (.node .leaf 65369 65369 65337 .leaf) 65370 65370 65338 .leaf)) 66600 66600 66560 (.node (.node (.node .leaf 66601 66601 66561 .leaf) 66602 66602 66562 .leaf) 66603 66603 66563 (.node .leaf 66604 66604 66564 .leaf))))) 66605 66605 66565 (.node (.node (.node (.node (.node (.node .leaf 66606 66606 66566 .leaf) 66607 66607 66567 .leaf) 66608 66608 66568 (.node (.node .leaf 66609 66609 66569 .leaf) 66610 66610 66570 .leaf)) 66611 66611 66571 (.node (.node (.node .leaf 66612 66612 66572 .leaf) 66613 66613 66573 .leaf) 66614 66614 66574 (.node .leaf 66615 66615 66575 .leaf))) 66616 66616 66576 (.node (.node (.node (.node .leaf 66617 66617 66577 .leaf) 66618 66618 66578 .leaf) 66619 66619 66579 (.node (.node .leaf 66620 66620 66580 .leaf) 66621 66621 66581 .leaf)) 66622 66622 66582 (.node (.node (.node .leaf 66623 66623 66583 .leaf) 66624 66624 66584 .leaf) 66625 66625 66585 (.node .leaf 66626 66626 66586 .leaf)))) 66627 66627 66587 (.node (.node (.node (.node (.node .leaf 66628 66628 66588 .leaf) 66629 66629 66589 .leaf) 66630 66630 66590 (.node (.node .leaf 66631 66631 66591 .leaf) 66632 66632 66592 .leaf)) 66633 66633 66593 (.node (.node (.node .leaf 66634 66634 66594 .leaf) 66635 66635 66595 .leaf) 66636 66636 66596 (.node .leaf 66637 66637 66597 .leaf))) 66638 66638 66598 (.node (.node (.node (.node .leaf 66639 66639 66599 .leaf) 66776 66776 66736 .leaf) 66777 66777 66737 (.node (.node .leaf 66778 66778 66738 .leaf) 66779 66779 66739 .leaf)) 66780 66780 66740 (.node (.node (.node .leaf 66781 66781 66741 .leaf) 66782 66782 66742 .leaf) 66783 66783 66743 (.node .leaf 66784 66784 66744 .leaf)))))))

def upperTable7 : RTree Nat := (.node (.node (.node (.node (.node (.node (.node (.node .leaf 66786 66786 66746 .leaf) 66787 66787 66747 .leaf) 66788 66788 66748 (.node (.node .leaf 66789 66789 66749 .leaf) 66790 66790 66750 .leaf)) 66791 66791 66751 (.node (.node (.node .leaf 66792 66792 66752 .leaf) 66793 66793 66753 .leaf) 66794 66794 66754 (.node .leaf 66795 66795 66755 .leaf))) 66796 66796 66756 (.node (.node (.node (.node .leaf 66797 66797 66757 .leaf) 66798 66798 66758 .leaf) 66799 66799 66759 (.node (.node .leaf 66800 66800 66760 .leaf) 66801 66801 66761 .leaf)) 66802 66802 66762 (.node (.node (.node .leaf 66803 66803 66763 .leaf) 66804 66804 66764 .leaf) 66805 66805 66765 (.node .leaf 66806 66806 66766 .leaf)))) 66807 66807 66767 (.node (.node (.node (.node (.node .leaf 66808 66808 66768 .leaf) 66809 66809 66769 .leaf) 66810 66810 66770 (.node (.node .leaf 66811 66811 66771 .leaf) 68800 68800 68736 .leaf)) 68801 68801 68737 (.node (.node (.node .leaf 68802 68802 68738 .leaf) 68803 68803 68739 .leaf) 68804 68804 68740 (.node .leaf 68805 68805 68741 .leaf))) 68806 68806 68742 (.node (.node (.node (.node .leaf 68807 68807 68743 .leaf) 68808 68808 68744 .leaf) 68809 68809 68745 (.node (.node .leaf 68810 68810 68746 .leaf) 68811 68811 68747 .leaf)) 68812 68812 68748 (.node (.node (.node .leaf 68813 68813 68749 .leaf) 68814 68814 68750 .leaf) 68815 68815 68751 (.node .leaf 68816 68816 68752 .leaf))))) 68817 68817 68753 (.node (.node (.node (.node (.node (.node .leaf 68818 68818 68754 .leaf) 68819 68819 68755 .leaf) 68820 68820 68756 (.node (.node .leaf 68821 68821 68757 .leaf) 68822 68822 68758 .leaf)) 68823 68823 68759 (.node (.node (.node .leaf 68824 68824 68760 .leaf) 68825 68825 68761 .leaf) 68826 68826 68762 (.node .leaf 68827 68827 68763 .leaf))) 68828 68828 68764 (.node (.node (.node (.node .leaf 68829 68829 68765 .leaf) 68830 68830 68766 .leaf) 68831 68831 68767 (.node (.node .leaf 68832 68832 68768 .leaf) 68833 68833 68769 .leaf)) 68834 68834 68770 (.node (.node (.node .leaf 68835 68835 68771 .leaf) 68836 68836 68772 .leaf) 68837 68837 68773 (.node .leaf 68838 68838 68774 .leaf)))) 68839 68839 68775 (.node (.node (.node (.node (.node .leaf 68840 68840 68776 .leaf) 68841 68841 68777 .leaf) 68842 68842 68778 (.node (.node .leaf 68843 68843 68779 .leaf) 68844 68844 68780 .leaf)) 68845 68845 68781 (.node (.node (.node .leaf 68846 68846 68782 .leaf) 68847 68847 68783 .leaf) 68848 68848 68784 (.node .leaf 68849 68849 68785 .leaf))) 68850 68850 68786 (.node (.node (.node (.node .leaf 71872 71872 71840 .leaf) 71873 71873 71841 .leaf) 71874 71874 71842 (.node (.node .leaf 71875 71875 71843 .leaf) 71876 71876 71844 .leaf)) 71877 71877 71845 (.node (.node (.node .leaf 71878 71878 71846 .leaf) 71879 71879 71847 .leaf) 71880 71880 71848 (.node .leaf 71881 71881 71849 .leaf)))))) 71882 71882 71850 (.node (.node (.node (.node (.node (.node (.node .leaf 71883 71883 71851 .leaf) 71884 71884 71852 .leaf) 71885 71885 71853 (.node (.node .leaf 71886 71886 71854 .leaf) 71887 71887 71855 .leaf)) 71888 71888 71856 (.node (.node (.node .leaf 71889 71889 71857 .leaf) 71890 71890 71858 .leaf) 71891 71891 71859 (.node .leaf 71892 71892 71860 .leaf))) 71893 71893 71861 (.node (.node (.node (.node .leaf 71894 71894 71862 .leaf) 71895 71895 71863 .leaf) 71896 71896 71864 (.node (.node .leaf 71897 71897 71865 .leaf) 71898 71898 71866 .leaf)) 71899 71899 71867 (.node (.node (.node .leaf 71900 71900 71868 .leaf) 71901 71901 71869 .leaf) 71902 71902 71870 (.node .leaf 71903 71903 71871 .leaf)))) 93792 93792 93760 (.node (.node (.node (.node (.node .leaf 93793 93793 93761 .leaf) 93794 93794 93762 .leaf) 93795 93795 93763 (.node (.node .leaf 93796 93796 93764 .leaf) 93797 93797 93765 .leaf)) 93798 93798 93766 (.node (.node (.node .leaf 93799 93799 93767 .leaf) 93800 93800 93768 .leaf) 93801 93801 93769 (.node .leaf 93802 93802 93770 .leaf))) 93803 93803 93771 (.node (.node (.node (.node .leaf 93804 93804 93772 .leaf) 93805 93805 93773 .leaf) 93806 93806 93774 (.node (.node .leaf 93807 93807 93775 .leaf) 93808 93808 93776 .leaf)) 93809 93809 93777 (.node (.node (.node .leaf 93810 93810 93778 .leaf) 93811 93811 93779 .leaf) 93812 93812 93780 (.node .leaf 93813 93813 93781 .leaf))))) 93814 93814 93782 (.node (.node (.node (.node (.node (.node .leaf 93815 93815 93783 .leaf) 93816 93816 93784 .leaf) 93817 93817 93785 (.node (.node .leaf 93818 93818 93786 .leaf) 93819 93819 93787 .leaf)) 93820 93820 93788 (.node (.node (.node .leaf 93821 93821 93789 .leaf) 93822 93822 93790 .leaf) 93823 93823 93791 (.node .leaf 125218 125218 125184 .leaf))) 125219 125219 125185 (.node (.node (.node (.node .leaf 125220 125220 125186 .leaf) 125221 125221 125187 .leaf) 125222 125222 125188 (.node (.node .leaf 125223 125223 125189 .leaf) 125224 125224 125190 .leaf)) 125225 125225 125191 (.node (.node (.node .leaf 125226 125226 125192 .leaf) 125227 125227 125193 .leaf) 125228 125228 125194 (.node .leaf 125229 125229 125195 .leaf)))) 125230 125230 125196 (.node (.node (.node (.node (.node .leaf 125231 125231 125197 .leaf) 125232 125232 125198 .leaf) 125233 125233 125199 (.node (.node .leaf 125234 125234 125200 .leaf) 125235 125235 125201 .leaf)) 125236 125236 125202 (.node (.node (.node .leaf 125237 125237 125203 .leaf) 125238 125238 125204 .leaf) 125239 125239 125205 (.node .leaf 125240 125240 125206 .leaf))) 125241 125241 125207 (.node (.node (.node (.node .leaf 125242 125242 125208 .leaf) 125243 125243 125209 .leaf) 125244 125244 125210 (.node (.node .leaf 125245 125245 125211 .leaf) 125246 125246 125212 .leaf)) 125247 125247 125213 (.node (.node (.node .leaf 125248 125248 125214 .leaf) 125249 125249 125215 .leaf) 125250 125250 125216 (.node .leaf 125251 125251 125217 .leaf)))))))

/-- Field 12 of UnicodeData.txt, where it is not empty. -/
def upperTable : RTree Nat := (.node (.node (.node upperTable0 519 519 518 upperTable1) 1115 1115 1035 (.node upperTable2 4338 4338 7346 upperTable3)) 7984 7984 7992 (.node (.node upperTable4 11399 11399 11398 upperTable5) 42903 42903 42902 (.node upperTable6 66785 66785 66745 upperTable7)))

end Verif.Unidata
