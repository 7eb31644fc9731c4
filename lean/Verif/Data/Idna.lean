import Verif.Model.UniGen

/-! Written by tools/gen_idna.py from /repo/idna/IdnaMappingTable.txt. -/

namespace Verif.Unidata
open Verif.UniGen

/-- The statuses in IdnaMappingTable.txt. -/
inductive Status where
  | valid | mapped | ignored | deviation | disallowed | std3Valid | std3Mapped
  deriving DecidableEq, Repr

def idnaTable0 : RTree (Status × List Nat) := (.node (.node (.node (.node (.node (.node (.node (.node (.node .leaf 0 44 (.std3Valid, []) .leaf) 45 46 (.valid, []) .leaf) 47 47 (.std3Valid, []) (.node .leaf 48 57 (.valid, []) .leaf)) 58 64 (.std3Valid, []) (.node (.node .leaf 65 65 (.mapped, [97]) .leaf) 66 66 (.mapped, [98]) (.node .leaf 67 67 (.mapped, [99]) .leaf))) 68 68 (.mapped, [100]) (.node (.node (.node (.node .leaf 69 69 (.mapped, [101]) .leaf) 70 70 (.mapped, [102]) .leaf) 71 71 (.mapped, [103]) (.node .leaf 72 72 (.mapped, [104]) .leaf)) 73 73 (.mapped, [105]) (.node (.node .leaf 74 74 (.mapped, [106]) .leaf) 75 75 (.mapped, [107]) (.node .leaf 76 76 (.mapped, [108]) .leaf)))) 77 77 (.mapped, [109]) (.node (.node (.node (.node (.node .leaf 78 78 (.mapped, [110]) .leaf) 79 79 (.mapped, [111]) .leaf) 80 80 (.mapped, [112]) (.node .leaf 81 81 (.mapped, [113]) .leaf)) 82 82 (.mapped, [114]) (.node (.node .leaf 83 83 (.mapped, [115]) .leaf) 84 84 (.mapped, [116]) (.node .leaf 85 85 (.mapped, [117]) .leaf))) 86 86 (.mapped, [118]) (.node (.node (.node .leaf 87 87 (.mapped, [119]) .leaf) 88 88 (.mapped, [120]) (.node .leaf 89 89 (.mapped, [121]) .leaf)) 90 90 (.mapped, [122]) (.node (.node .leaf 91 96 (.std3Valid, []) .leaf) 97 122 (.valid, []) (.node .leaf 123 127 (.std3Valid, []) .leaf))))) 128 159 (.disallowed, []) (.node (.node (.node (.node (.node (.node .leaf 160 160 (.std3Mapped, [32]) .leaf) 161 167 (.valid, []) .leaf) 168 168 (.std3Mapped, [32, 776]) (.node .leaf 169 169 (.valid, []) .leaf)) 170 170 (.mapped, [97]) (.node (.node .leaf 171 172 (.valid, []) .leaf) 173 173 (.ignored, []) (.node .leaf 174 174 (.valid, []) .leaf))) 175 175 (.std3Mapped, [32, 772]) (.node (.node (.node .leaf 176 177 (.valid, []) .leaf) 178 178 (.mapped, [50]) (.node .leaf 179 179 (.mapped, [51]) .leaf)) 180 180 (.std3Mapped, [32, 769]) (.node (.node .leaf 181 181 (.mapped, [956]) .leaf) 182 182 (.valid, []) (.node .leaf 183 183 (.valid, []) .leaf)))) 184 184 (.std3Mapped, [32, 807]) (.node (.node (.node (.node (.node .leaf 185 185 (.mapped, [49]) .leaf) 186 186 (.mapped, [111]) .leaf) 187 187 (.valid, []) (.node .leaf 188 188 (.mapped, [49, 8260, 52]) .leaf)) 189 189 (.mapped, [49, 8260, 50]) (.node (.node .leaf 190 190 (.mapped, [51, 8260, 52]) .leaf) 191 191 (.valid, []) (.node .leaf 192 192 (.mapped, [224]) .leaf))) 193 193 (.mapped, [225]) (.node (.node (.node .leaf 194 194 (.mapped, [226]) .leaf) 195 195 (.mapped, [227]) (.node .leaf 196 196 (.mapped, [228]) .leaf)) 197 197 (.mapped, [229]) (.node (.node .leaf 198 198 (.mapped, [230]) .leaf) 199 199 (.mapped, [231]) (.node .leaf 200 200 (.mapped, [232]) .leaf)))))) 201 201 (.mapped, [233]) (.node (.node (.node (.node (.node (.node (.node .leaf 202 202 (.mapped, [234]) .leaf) 203 203 (.mapped, [235]) .leaf) 204 204 (.mapped, [236]) (.node .leaf 205 205 (.mapped, [237]) .leaf)) 206 206 (.mapped, [238]) (.node (.node .leaf 207 207 (.mapped, [239]) .leaf) 208 208 (.mapped, [240]) (.node .leaf 209 209 (.mapped, [241]) .leaf))) 210 210 (.mapped, [242]) (.node (.node (.node .leaf 211 211 (.mapped, [243]) .leaf) 212 212 (.mapped, [244]) (.node .leaf 213 213 (.mapped, [245]) .leaf)) 214 214 (.mapped, [246]) (.node (.node .leaf 215 215 (.valid, []) .leaf) 216 216 (.mapped, [248]) (.node .leaf 217 217 (.mapped, [249]) .leaf)))) 218 218 (.mapped, [250]) (.node (.node (.node (.node (.node .leaf 219 219 (.mapped, [251]) .leaf) 220 220 (.mapped, [252]) .leaf) 221 221 (.mapped, [253]) (.node .leaf 222 222 (.mapped, [254]) .leaf)) 223 223 (.deviation, [115, 115]) (.node (.node .leaf 224 246 (.valid, []) .leaf) 247 247 (.valid, []) (.node .leaf 248 255 (.valid, []) .leaf))) 256 256 (.mapped, [257]) (.node (.node (.node .leaf 257 257 (.valid, []) .leaf) 258 258 (.mapped, [259]) (.node .leaf 259 259 (.valid, []) .leaf)) 260 260 (.mapped, [261]) (.node (.node .leaf 261 261 (.valid, []) .leaf) 262 262 (.mapped, [263]) (.node .leaf 263 263 (.valid, []) .leaf))))) 264 264 (.mapped, [265]) (.node (.node (.node (.node (.node (.node .leaf 265 265 (.valid, []) .leaf) 266 266 (.mapped, [267]) .leaf) 267 267 (.valid, []) (.node .leaf 268 268 (.mapped, [269]) .leaf)) 269 269 (.valid, []) (.node (.node .leaf 270 270 (.mapped, [271]) .leaf) 271 271 (.valid, []) (.node .leaf 272 272 (.mapped, [273]) .leaf))) 273 273 (.valid, []) (.node (.node (.node .leaf 274 274 (.mapped, [275]) .leaf) 275 275 (.valid, []) (.node .leaf 276 276 (.mapped, [277]) .leaf)) 277 277 (.valid, []) (.node (.node .leaf 278 278 (.mapped, [279]) .leaf) 279 279 (.valid, []) (.node .leaf 280 280 (.mapped, [281]) .leaf)))) 281 281 (.valid, []) (.node (.node (.node (.node (.node .leaf 282 282 (.mapped, [283]) .leaf) 283 283 (.valid, []) .leaf) 284 284 (.mapped, [285]) (.node .leaf 285 285 (.valid, []) .leaf)) 286 286 (.mapped, [287]) (.node (.node .leaf 287 287 (.valid, []) .leaf) 288 288 (.mapped, [289]) (.node .leaf 289 289 (.valid, []) .leaf))) 290 290 (.mapped, [291]) (.node (.node (.node .leaf 291 291 (.valid, []) .leaf) 292 292 (.mapped, [293]) (.node .leaf 293 293 (.valid, []) .leaf)) 294 294 (.mapped, [295]) (.node (.node .leaf 295 295 (.valid, []) .leaf) 296 296 (.mapped, [297]) (.node .leaf 297 297 (.valid, []) .leaf))))))) 298 298 (.mapped, [299]) (.node (.node (.node (.node (.node (.node (.node (.node .leaf 299 299 (.valid, []) .leaf) 300 300 (.mapped, [301]) .leaf) 301 301 (.valid, []) (.node .leaf 302 302 (.mapped, [303]) .leaf)) 303 303 (.valid, []) (.node (.node .leaf 304 304 (.mapped, [105, 775]) .leaf) 305 305 (.valid, []) (.node .leaf 306 307 (.mapped, [105, 106]) .leaf))) 308 308 (.mapped, [309]) (.node (.node (.node .leaf 309 309 (.valid, []) .leaf) 310 310 (.mapped, [311]) (.node .leaf 311 312 (.valid, []) .leaf)) 313 313 (.mapped, [314]) (.node (.node .leaf 314 314 (.valid, []) .leaf) 315 315 (.mapped, [316]) (.node .leaf 316 316 (.valid, []) .leaf)))) 317 317 (.mapped, [318]) (.node (.node (.node (.node (.node .leaf 318 318 (.valid, []) .leaf) 319 320 (.mapped, [108, 183]) .leaf) 321 321 (.mapped, [322]) (.node .leaf 322 322 (.valid, []) .leaf)) 323 323 (.mapped, [324]) (.node (.node .leaf 324 324 (.valid, []) .leaf) 325 325 (.mapped, [326]) (.node .leaf 326 326 (.valid, []) .leaf))) 327 327 (.mapped, [328]) (.node (.node (.node .leaf 328 328 (.valid, []) .leaf) 329 329 (.mapped, [700, 110]) (.node .leaf 330 330 (.mapped, [331]) .leaf)) 331 331 (.valid, []) (.node (.node .leaf 332 332 (.mapped, [333]) .leaf) 333 333 (.valid, []) (.node .leaf 334 334 (.mapped, [335]) .leaf))))) 335 335 (.valid, []) (.node (.node (.node (.node (.node (.node .leaf 336 336 (.mapped, [337]) .leaf) 337 337 (.valid, []) .leaf) 338 338 (.mapped, [339]) (.node .leaf 339 339 (.valid, []) .leaf)) 340 340 (.mapped, [341]) (.node (.node .leaf 341 341 (.valid, []) .leaf) 342 342 (.mapped, [343]) (.node .leaf 343 343 (.valid, []) .leaf))) 344 344 (.mapped, [345]) (.node (.node (.node .leaf 345 345 (.valid, []) .leaf) 346 346 (.mapped, [347]) (.node .leaf 347 347 (.valid, []) .leaf)) 348 348 (.mapped, [349]) (.node (.node .leaf 349 349 (.valid, []) .leaf) 350 350 (.mapped, [351]) (.node .leaf 351 351 (.valid, []) .leaf)))) 352 352 (.mapped, [353]) (.node (.node (.node (.node (.node .leaf 353 353 (.valid, []) .leaf) 354 354 (.mapped, [355]) .leaf) 355 355 (.valid, []) (.node .leaf 356 356 (.mapped, [357]) .leaf)) 357 357 (.valid, []) (.node (.node .leaf 358 358 (.mapped, [359]) .leaf) 359 359 (.valid, []) (.node .leaf 360 360 (.mapped, [361]) .leaf))) 361 361 (.valid, []) (.node (.node (.node .leaf 362 362 (.mapped, [363]) .leaf) 363 363 (.valid, []) (.node .leaf 364 364 (.mapped, [365]) .leaf)) 365 365 (.valid, []) (.node (.node .leaf 366 366 (.mapped, [367]) .leaf) 367 367 (.valid, []) (.node .leaf 368 368 (.mapped, [369]) .leaf)))))) 369 369 (.valid, []) (.node (.node (.node (.node (.node (.node (.node .leaf 370 370 (.mapped, [371]) .leaf) 371 371 (.valid, []) .leaf) 372 372 (.mapped, [373]) (.node .leaf 373 373 (.valid, []) .leaf)) 374 374 (.mapped, [375]) (.node (.node .leaf 375 375 (.valid, []) .leaf) 376 376 (.mapped, [255]) (.node .leaf 377 377 (.mapped, [378]) .leaf))) 378 378 (.valid, []) (.node (.node (.node .leaf 379 379 (.mapped, [380]) .leaf) 380 380 (.valid, []) (.node .leaf 381 381 (.mapped, [382]) .leaf)) 382 382 (.valid, []) (.node (.node .leaf 383 383 (.mapped, [115]) .leaf) 384 384 (.valid, []) (.node .leaf 385 385 (.mapped, [595]) .leaf)))) 386 386 (.mapped, [387]) (.node (.node (.node (.node (.node .leaf 387 387 (.valid, []) .leaf) 388 388 (.mapped, [389]) .leaf) 389 389 (.valid, []) (.node .leaf 390 390 (.mapped, [596]) .leaf)) 391 391 (.mapped, [392]) (.node (.node .leaf 392 392 (.valid, []) .leaf) 393 393 (.mapped, [598]) (.node .leaf 394 394 (.mapped, [599]) .leaf))) 395 395 (.mapped, [396]) (.node (.node (.node .leaf 396 397 (.valid, []) .leaf) 398 398 (.mapped, [477]) (.node .leaf 399 399 (.mapped, [601]) .leaf)) 400 400 (.mapped, [603]) (.node (.node .leaf 401 401 (.mapped, [402]) .leaf) 402 402 (.valid, []) (.node .leaf 403 403 (.mapped, [608]) .leaf))))) 404 404 (.mapped, [611]) (.node (.node (.node (.node (.node (.node .leaf 405 405 (.valid, []) .leaf) 406 406 (.mapped, [617]) .leaf) 407 407 (.mapped, [616]) (.node .leaf 408 408 (.mapped, [409]) .leaf)) 409 411 (.valid, []) (.node (.node .leaf 412 412 (.mapped, [623]) .leaf) 413 413 (.mapped, [626]) (.node .leaf 414 414 (.valid, []) .leaf))) 415 415 (.mapped, [629]) (.node (.node (.node .leaf 416 416 (.mapped, [417]) .leaf) 417 417 (.valid, []) (.node .leaf 418 418 (.mapped, [419]) .leaf)) 419 419 (.valid, []) (.node (.node .leaf 420 420 (.mapped, [421]) .leaf) 421 421 (.valid, []) (.node .leaf 422 422 (.mapped, [640]) .leaf)))) 423 423 (.mapped, [424]) (.node (.node (.node (.node (.node .leaf 424 424 (.valid, []) .leaf) 425 425 (.mapped, [643]) .leaf) 426 427 (.valid, []) (.node .leaf 428 428 (.mapped, [429]) .leaf)) 429 429 (.valid, []) (.node (.node .leaf 430 430 (.mapped, [648]) .leaf) 431 431 (.mapped, [432]) (.node .leaf 432 432 (.valid, []) .leaf))) 433 433 (.mapped, [650]) (.node (.node (.node .leaf 434 434 (.mapped, [651]) .leaf) 435 435 (.mapped, [436]) (.node .leaf 436 436 (.valid, []) .leaf)) 437 437 (.mapped, [438]) (.node (.node .leaf 438 438 (.valid, []) .leaf) 439 439 (.mapped, [658]) (.node .leaf 440 440 (.mapped, [441]) .leaf))))))))

def idnaTable1 : RTree (Status × List Nat) := (.node (.node (.node (.node (.node (.node (.node (.node (.node .leaf 444 444 (.mapped, [445]) .leaf) 445 451 (.valid, []) .leaf) 452 454 (.mapped, [100, 382]) (.node .leaf 455 457 (.mapped, [108, 106]) .leaf)) 458 460 (.mapped, [110, 106]) (.node (.node .leaf 461 461 (.mapped, [462]) .leaf) 462 462 (.valid, []) (.node .leaf 463 463 (.mapped, [464]) .leaf))) 464 464 (.valid, []) (.node (.node (.node .leaf 465 465 (.mapped, [466]) .leaf) 466 466 (.valid, []) (.node .leaf 467 467 (.mapped, [468]) .leaf)) 468 468 (.valid, []) (.node (.node .leaf 469 469 (.mapped, [470]) .leaf) 470 470 (.valid, []) (.node .leaf 471 471 (.mapped, [472]) .leaf)))) 472 472 (.valid, []) (.node (.node (.node (.node (.node .leaf 473 473 (.mapped, [474]) .leaf) 474 474 (.valid, []) .leaf) 475 475 (.mapped, [476]) (.node .leaf 476 477 (.valid, []) .leaf)) 478 478 (.mapped, [479]) (.node (.node .leaf 479 479 (.valid, []) .leaf) 480 480 (.mapped, [481]) (.node .leaf 481 481 (.valid, []) .leaf))) 482 482 (.mapped, [483]) (.node (.node (.node .leaf 483 483 (.valid, []) .leaf) 484 484 (.mapped, [485]) (.node .leaf 485 485 (.valid, []) .leaf)) 486 486 (.mapped, [487]) (.node (.node .leaf 487 487 (.valid, []) .leaf) 488 488 (.mapped, [489]) (.node .leaf 489 489 (.valid, []) .leaf))))) 490 490 (.mapped, [491]) (.node (.node (.node (.node (.node (.node .leaf 491 491 (.valid, []) .leaf) 492 492 (.mapped, [493]) .leaf) 493 493 (.valid, []) (.node .leaf 494 494 (.mapped, [495]) .leaf)) 495 496 (.valid, []) (.node (.node .leaf 497 499 (.mapped, [100, 122]) .leaf) 500 500 (.mapped, [501]) (.node .leaf 501 501 (.valid, []) .leaf))) 502 502 (.mapped, [405]) (.node (.node (.node .leaf 503 503 (.mapped, [447]) .leaf) 504 504 (.mapped, [505]) (.node .leaf 505 505 (.valid, []) .leaf)) 506 506 (.mapped, [507]) (.node (.node .leaf 507 507 (.valid, []) .leaf) 508 508 (.mapped, [509]) (.node .leaf 509 509 (.valid, []) .leaf)))) 510 510 (.mapped, [511]) (.node (.node (.node (.node (.node .leaf 511 511 (.valid, []) .leaf) 512 512 (.mapped, [513]) .leaf) 513 513 (.valid, []) (.node .leaf 514 514 (.mapped, [515]) .leaf)) 515 515 (.valid, []) (.node (.node .leaf 516 516 (.mapped, [517]) .leaf) 517 517 (.valid, []) (.node .leaf 518 518 (.mapped, [519]) .leaf))) 519 519 (.valid, []) (.node (.node (.node .leaf 520 520 (.mapped, [521]) .leaf) 521 521 (.valid, []) (.node .leaf 522 522 (.mapped, [523]) .leaf)) 523 523 (.valid, []) (.node (.node .leaf 524 524 (.mapped, [525]) .leaf) 525 525 (.valid, []) (.node .leaf 526 526 (.mapped, [527]) .leaf)))))) 527 527 (.valid, []) (.node (.node (.node (.node (.node (.node (.node .leaf 528 528 (.mapped, [529]) .leaf) 529 529 (.valid, []) .leaf) 530 530 (.mapped, [531]) (.node .leaf 531 531 (.valid, []) .leaf)) 532 532 (.mapped, [533]) (.node (.node .leaf 533 533 (.valid, []) .leaf) 534 534 (.mapped, [535]) (.node .leaf 535 535 (.valid, []) .leaf))) 536 536 (.mapped, [537]) (.node (.node (.node .leaf 537 537 (.valid, []) .leaf) 538 538 (.mapped, [539]) (.node .leaf 539 539 (.valid, []) .leaf)) 540 540 (.mapped, [541]) (.node (.node .leaf 541 541 (.valid, []) .leaf) 542 542 (.mapped, [543]) (.node .leaf 543 543 (.valid, []) .leaf)))) 544 544 (.mapped, [414]) (.node (.node (.node (.node (.node .leaf 545 545 (.valid, []) .leaf) 546 546 (.mapped, [547]) .leaf) 547 547 (.valid, []) (.node .leaf 548 548 (.mapped, [549]) .leaf)) 549 549 (.valid, []) (.node (.node .leaf 550 550 (.mapped, [551]) .leaf) 551 551 (.valid, []) (.node .leaf 552 552 (.mapped, [553]) .leaf))) 553 553 (.valid, []) (.node (.node (.node .leaf 554 554 (.mapped, [555]) .leaf) 555 555 (.valid, []) (.node .leaf 556 556 (.mapped, [557]) .leaf)) 557 557 (.valid, []) (.node (.node .leaf 558 558 (.mapped, [559]) .leaf) 559 559 (.valid, []) (.node .leaf 560 560 (.mapped, [561]) .leaf))))) 561 561 (.valid, []) (.node (.node (.node (.node (.node (.node .leaf 562 562 (.mapped, [563]) .leaf) 563 563 (.valid, []) .leaf) 564 566 (.valid, []) (.node .leaf 567 569 (.valid, []) .leaf)) 570 570 (.mapped, [11365]) (.node (.node .leaf 571 571 (.mapped, [572]) .leaf) 572 572 (.valid, []) (.node .leaf 573 573 (.mapped, [410]) .leaf))) 574 574 (.mapped, [11366]) (.node (.node (.node .leaf 575 576 (.valid, []) .leaf) 577 577 (.mapped, [578]) (.node .leaf 578 578 (.valid, []) .leaf)) 579 579 (.mapped, [384]) (.node (.node .leaf 580 580 (.mapped, [649]) .leaf) 581 581 (.mapped, [652]) (.node .leaf 582 582 (.mapped, [583]) .leaf)))) 583 583 (.valid, []) (.node (.node (.node (.node (.node .leaf 584 584 (.mapped, [585]) .leaf) 585 585 (.valid, []) .leaf) 586 586 (.mapped, [587]) (.node .leaf 587 587 (.valid, []) .leaf)) 588 588 (.mapped, [589]) (.node (.node .leaf 589 589 (.valid, []) .leaf) 590 590 (.mapped, [591]) (.node .leaf 591 591 (.valid, []) .leaf))) 592 680 (.valid, []) (.node (.node (.node .leaf 681 685 (.valid, []) .leaf) 686 687 (.valid, []) (.node .leaf 688 688 (.mapped, [104]) .leaf)) 689 689 (.mapped, [614]) (.node (.node .leaf 690 690 (.mapped, [106]) .leaf) 691 691 (.mapped, [114]) (.node .leaf 692 692 (.mapped, [633]) .leaf))))))) 693 693 (.mapped, [635]) (.node (.node (.node (.node (.node (.node (.node (.node .leaf 694 694 (.mapped, [641]) .leaf) 695 695 (.mapped, [119]) .leaf) 696 696 (.mapped, [121]) (.node .leaf 697 705 (.valid, []) .leaf)) 706 709 (.valid, []) (.node (.node .leaf 710 721 (.valid, []) .leaf) 722 727 (.valid, []) (.node .leaf 728 728 (.std3Mapped, [32, 774]) .leaf))) 729 729 (.std3Mapped, [32, 775]) (.node (.node (.node .leaf 730 730 (.std3Mapped, [32, 778]) .leaf) 731 731 (.std3Mapped, [32, 808]) (.node .leaf 732 732 (.std3Mapped, [32, 771]) .leaf)) 733 733 (.std3Mapped, [32, 779]) (.node (.node .leaf 734 734 (.valid, []) .leaf) 735 735 (.valid, []) (.node .leaf 736 736 (.mapped, [611]) .leaf)))) 737 737 (.mapped, [108]) (.node (.node (.node (.node (.node .leaf 738 738 (.mapped, [115]) .leaf) 739 739 (.mapped, [120]) .leaf) 740 740 (.mapped, [661]) (.node .leaf 741 745 (.valid, []) .leaf)) 746 747 (.valid, []) (.node (.node .leaf 748 748 (.valid, []) .leaf) 749 749 (.valid, []) (.node .leaf 750 750 (.valid, []) .leaf))) 751 767 (.valid, []) (.node (.node (.node .leaf 768 831 (.valid, []) .leaf) 832 832 (.mapped, [768]) (.node .leaf 833 833 (.mapped, [769]) .leaf)) 834 834 (.valid, []) (.node (.node .leaf 835 835 (.mapped, [787]) .leaf) 836 836 (.mapped, [776, 769]) (.node .leaf 837 837 (.mapped, [953]) .leaf))))) 838 846 (.valid, []) (.node (.node (.node (.node (.node (.node .leaf 847 847 (.ignored, []) .leaf) 848 855 (.valid, []) .leaf) 856 860 (.valid, []) (.node .leaf 861 863 (.valid, []) .leaf)) 864 865 (.valid, []) (.node (.node .leaf 866 866 (.valid, []) .leaf) 867 879 (.valid, []) (.node .leaf 880 880 (.mapped, [881]) .leaf))) 881 881 (.valid, []) (.node (.node (.node .leaf 882 882 (.mapped, [883]) .leaf) 883 883 (.valid, []) (.node .leaf 884 884 (.mapped, [697]) .leaf)) 885 885 (.valid, []) (.node (.node .leaf 886 886 (.mapped, [887]) .leaf) 887 887 (.valid, []) (.node .leaf 888 889 (.disallowed, []) .leaf)))) 890 890 (.std3Mapped, [32, 953]) (.node (.node (.node (.node (.node .leaf 891 893 (.valid, []) .leaf) 894 894 (.std3Mapped, [59]) .leaf) 895 895 (.mapped, [1011]) (.node .leaf 896 899 (.disallowed, []) .leaf)) 900 900 (.std3Mapped, [32, 769]) (.node (.node .leaf 901 901 (.std3Mapped, [32, 776, 769]) .leaf) 902 902 (.mapped, [940]) (.node .leaf 903 903 (.mapped, [183]) .leaf))) 904 904 (.mapped, [941]) (.node (.node (.node .leaf 905 905 (.mapped, [942]) .leaf) 906 906 (.mapped, [943]) (.node .leaf 907 907 (.disallowed, []) .leaf)) 908 908 (.mapped, [972]) (.node (.node .leaf 909 909 (.disallowed, []) .leaf) 910 910 (.mapped, [973]) (.node .leaf 911 911 (.mapped, [974]) .leaf)))))) 912 912 (.valid, []) (.node (.node (.node (.node (.node (.node (.node .leaf 913 913 (.mapped, [945]) .leaf) 914 914 (.mapped, [946]) .leaf) 915 915 (.mapped, [947]) (.node .leaf 916 916 (.mapped, [948]) .leaf)) 917 917 (.mapped, [949]) (.node (.node .leaf 918 918 (.mapped, [950]) .leaf) 919 919 (.mapped, [951]) (.node .leaf 920 920 (.mapped, [952]) .leaf))) 921 921 (.mapped, [953]) (.node (.node (.node .leaf 922 922 (.mapped, [954]) .leaf) 923 923 (.mapped, [955]) (.node .leaf 924 924 (.mapped, [956]) .leaf)) 925 925 (.mapped, [957]) (.node (.node .leaf 926 926 (.mapped, [958]) .leaf) 927 927 (.mapped, [959]) (.node .leaf 928 928 (.mapped, [960]) .leaf)))) 929 929 (.mapped, [961]) (.node (.node (.node (.node (.node .leaf 930 930 (.disallowed, []) .leaf) 931 931 (.mapped, [963]) .leaf) 932 932 (.mapped, [964]) (.node .leaf 933 933 (.mapped, [965]) .leaf)) 934 934 (.mapped, [966]) (.node (.node .leaf 935 935 (.mapped, [967]) .leaf) 936 936 (.mapped, [968]) (.node .leaf 937 937 (.mapped, [969]) .leaf))) 938 938 (.mapped, [970]) (.node (.node (.node .leaf 939 939 (.mapped, [971]) .leaf) 940 961 (.valid, []) (.node .leaf 962 962 (.deviation, [963]) .leaf)) 963 974 (.valid, []) (.node (.node .leaf 975 975 (.mapped, [983]) .leaf) 976 976 (.mapped, [946]) (.node .leaf 977 977 (.mapped, [952]) .leaf))))) 978 978 (.mapped, [965]) (.node (.node (.node (.node (.node (.node .leaf 979 979 (.mapped, [973]) .leaf) 980 980 (.mapped, [971]) .leaf) 981 981 (.mapped, [966]) (.node .leaf 982 982 (.mapped, [960]) .leaf)) 983 983 (.valid, []) (.node (.node .leaf 984 984 (.mapped, [985]) .leaf) 985 985 (.valid, []) (.node .leaf 986 986 (.mapped, [987]) .leaf))) 987 987 (.valid, []) (.node (.node (.node .leaf 988 988 (.mapped, [989]) .leaf) 989 989 (.valid, []) (.node .leaf 990 990 (.mapped, [991]) .leaf)) 991 991 (.valid, []) (.node (.node .leaf 992 992 (.mapped, [993]) .leaf) 993 993 (.valid, []) (.node .leaf 994 994 (.mapped, [995]) .leaf)))) 995 995 (.valid, []) (.node (.node (.node (.node (.node .leaf 996 996 (.mapped, [997]) .leaf) 997 997 (.valid, []) .leaf) 998 998 (.mapped, [999]) (.node .leaf 999 999 (.valid, []) .leaf)) 1000 1000 (.mapped, [1001]) (.node (.node .leaf 1001 1001 (.valid, []) .leaf) 1002 1002 (.mapped, [1003]) (.node .leaf 1003 1003 (.valid, []) .leaf))) 1004 1004 (.mapped, [1005]) (.node (.node (.node .leaf 1005 1005 (.valid, []) .leaf) 1006 1006 (.mapped, [1007]) (.node .leaf 1007 1007 (.valid, []) .leaf)) 1008 1008 (.mapped, [954]) (.node (.node .leaf 1009 1009 (.mapped, [961]) .leaf) 1010 1010 (.mapped, [963]) (.node .leaf 1011 1011 (.valid, []) .leaf))))))))

def idnaTable2 : RTree (Status × List Nat) := (.node (.node (.node (.node (.node (.node (.node (.node (.node .leaf 1013 1013 (.mapped, [949]) .leaf) 1014 1014 (.valid, []) .leaf) 1015 1015 (.mapped, [1016]) (.node .leaf 1016 1016 (.valid, []) .leaf)) 1017 1017 (.mapped, [963]) (.node (.node .leaf 1018 1018 (.mapped, [1019]) .leaf) 1019 1019 (.valid, []) (.node .leaf 1020 1020 (.valid, []) .leaf))) 1021 1021 (.mapped, [891]) (.node (.node (.node (.node .leaf 1022 1022 (.mapped, [892]) .leaf) 1023 1023 (.mapped, [893]) .leaf) 1024 1024 (.mapped, [1104]) (.node .leaf 1025 1025 (.mapped, [1105]) .leaf)) 1026 1026 (.mapped, [1106]) (.node (.node .leaf 1027 1027 (.mapped, [1107]) .leaf) 1028 1028 (.mapped, [1108]) (.node .leaf 1029 1029 (.mapped, [1109]) .leaf)))) 1030 1030 (.mapped, [1110]) (.node (.node (.node (.node (.node .leaf 1031 1031 (.mapped, [1111]) .leaf) 1032 1032 (.mapped, [1112]) .leaf) 1033 1033 (.mapped, [1113]) (.node .leaf 1034 1034 (.mapped, [1114]) .leaf)) 1035 1035 (.mapped, [1115]) (.node (.node .leaf 1036 1036 (.mapped, [1116]) .leaf) 1037 1037 (.mapped, [1117]) (.node .leaf 1038 1038 (.mapped, [1118]) .leaf))) 1039 1039 (.mapped, [1119]) (.node (.node (.node .leaf 1040 1040 (.mapped, [1072]) .leaf) 1041 1041 (.mapped, [1073]) (.node .leaf 1042 1042 (.mapped, [1074]) .leaf)) 1043 1043 (.mapped, [1075]) (.node (.node .leaf 1044 1044 (.mapped, [1076]) .leaf) 1045 1045 (.mapped, [1077]) (.node .leaf 1046 1046 (.mapped, [1078]) .leaf))))) 1047 1047 (.mapped, [1079]) (.node (.node (.node (.node (.node (.node .leaf 1048 1048 (.mapped, [1080]) .leaf) 1049 1049 (.mapped, [1081]) .leaf) 1050 1050 (.mapped, [1082]) (.node .leaf 1051 1051 (.mapped, [1083]) .leaf)) 1052 1052 (.mapped, [1084]) (.node (.node .leaf 1053 1053 (.mapped, [1085]) .leaf) 1054 1054 (.mapped, [1086]) (.node .leaf 1055 1055 (.mapped, [1087]) .leaf))) 1056 1056 (.mapped, [1088]) (.node (.node (.node .leaf 1057 1057 (.mapped, [1089]) .leaf) 1058 1058 (.mapped, [1090]) (.node .leaf 1059 1059 (.mapped, [1091]) .leaf)) 1060 1060 (.mapped, [1092]) (.node (.node .leaf 1061 1061 (.mapped, [1093]) .leaf) 1062 1062 (.mapped, [1094]) (.node .leaf 1063 1063 (.mapped, [1095]) .leaf)))) 1064 1064 (.mapped, [1096]) (.node (.node (.node (.node (.node .leaf 1065 1065 (.mapped, [1097]) .leaf) 1066 1066 (.mapped, [1098]) .leaf) 1067 1067 (.mapped, [1099]) (.node .leaf 1068 1068 (.mapped, [1100]) .leaf)) 1069 1069 (.mapped, [1101]) (.node (.node .leaf 1070 1070 (.mapped, [1102]) .leaf) 1071 1071 (.mapped, [1103]) (.node .leaf 1072 1103 (.valid, []) .leaf))) 1104 1104 (.valid, []) (.node (.node (.node .leaf 1105 1116 (.valid, []) .leaf) 1117 1117 (.valid, []) (.node .leaf 1118 1119 (.valid, []) .leaf)) 1120 1120 (.mapped, [1121]) (.node (.node .leaf 1121 1121 (.valid, []) .leaf) 1122 1122 (.mapped, [1123]) (.node .leaf 1123 1123 (.valid, []) .leaf)))))) 1124 1124 (.mapped, [1125]) (.node (.node (.node (.node (.node (.node (.node .leaf 1125 1125 (.valid, []) .leaf) 1126 1126 (.mapped, [1127]) .leaf) 1127 1127 (.valid, []) (.node .leaf 1128 1128 (.mapped, [1129]) .leaf)) 1129 1129 (.valid, []) (.node (.node .leaf 1130 1130 (.mapped, [1131]) .leaf) 1131 1131 (.valid, []) (.node .leaf 1132 1132 (.mapped, [1133]) .leaf))) 1133 1133 (.valid, []) (.node (.node (.node .leaf 1134 1134 (.mapped, [1135]) .leaf) 1135 1135 (.valid, []) (.node .leaf 1136 1136 (.mapped, [1137]) .leaf)) 1137 1137 (.valid, []) (.node (.node .leaf 1138 1138 (.mapped, [1139]) .leaf) 1139 1139 (.valid, []) (.node .leaf 1140 1140 (.mapped, [1141]) .leaf)))) 1141 1141 (.valid, []) (.node (.node (.node (.node (.node .leaf 1142 1142 (.mapped, [1143]) .leaf) 1143 1143 (.valid, []) .leaf) 1144 1144 (.mapped, [1145]) (.node .leaf 1145 1145 (.valid, []) .leaf)) 1146 1146 (.mapped, [1147]) (.node (.node .leaf 1147 1147 (.valid, []) .leaf) 1148 1148 (.mapped, [1149]) (.node .leaf 1149 1149 (.valid, []) .leaf))) 1150 1150 (.mapped, [1151]) (.node (.node (.node .leaf 1151 1151 (.valid, []) .leaf) 1152 1152 (.mapped, [1153]) (.node .leaf 1153 1153 (.valid, []) .leaf)) 1154 1154 (.valid, []) (.node (.node .leaf 1155 1158 (.valid, []) .leaf) 1159 1159 (.valid, []) (.node .leaf 1160 1161 (.valid, []) .leaf))))) 1162 1162 (.mapped, [1163]) (.node (.node (.node (.node (.node (.node .leaf 1163 1163 (.valid, []) .leaf) 1164 1164 (.mapped, [1165]) .leaf) 1165 1165 (.valid, []) (.node .leaf 1166 1166 (.mapped, [1167]) .leaf)) 1167 1167 (.valid, []) (.node (.node .leaf 1168 1168 (.mapped, [1169]) .leaf) 1169 1169 (.valid, []) (.node .leaf 1170 1170 (.mapped, [1171]) .leaf))) 1171 1171 (.valid, []) (.node (.node (.node .leaf 1172 1172 (.mapped, [1173]) .leaf) 1173 1173 (.valid, []) (.node .leaf 1174 1174 (.mapped, [1175]) .leaf)) 1175 1175 (.valid, []) (.node (.node .leaf 1176 1176 (.mapped, [1177]) .leaf) 1177 1177 (.valid, []) (.node .leaf 1178 1178 (.mapped, [1179]) .leaf)))) 1179 1179 (.valid, []) (.node (.node (.node (.node (.node .leaf 1180 1180 (.mapped, [1181]) .leaf) 1181 1181 (.valid, []) .leaf) 1182 1182 (.mapped, [1183]) (.node .leaf 1183 1183 (.valid, []) .leaf)) 1184 1184 (.mapped, [1185]) (.node (.node .leaf 1185 1185 (.valid, []) .leaf) 1186 1186 (.mapped, [1187]) (.node .leaf 1187 1187 (.valid, []) .leaf))) 1188 1188 (.mapped, [1189]) (.node (.node (.node .leaf 1189 1189 (.valid, []) .leaf) 1190 1190 (.mapped, [1191]) (.node .leaf 1191 1191 (.valid, []) .leaf)) 1192 1192 (.mapped, [1193]) (.node (.node .leaf 1193 1193 (.valid, []) .leaf) 1194 1194 (.mapped, [1195]) (.node .leaf 1195 1195 (.valid, []) .leaf))))))) 1196 1196 (.mapped, [1197]) (.node (.node (.node (.node (.node (.node (.node (.node .leaf 1197 1197 (.valid, []) .leaf) 1198 1198 (.mapped, [1199]) .leaf) 1199 1199 (.valid, []) (.node .leaf 1200 1200 (.mapped, [1201]) .leaf)) 1201 1201 (.valid, []) (.node (.node .leaf 1202 1202 (.mapped, [1203]) .leaf) 1203 1203 (.valid, []) (.node .leaf 1204 1204 (.mapped, [1205]) .leaf))) 1205 1205 (.valid, []) (.node (.node (.node .leaf 1206 1206 (.mapped, [1207]) .leaf) 1207 1207 (.valid, []) (.node .leaf 1208 1208 (.mapped, [1209]) .leaf)) 1209 1209 (.valid, []) (.node (.node .leaf 1210 1210 (.mapped, [1211]) .leaf) 1211 1211 (.valid, []) (.node .leaf 1212 1212 (.mapped, [1213]) .leaf)))) 1213 1213 (.valid, []) (.node (.node (.node (.node (.node .leaf 1214 1214 (.mapped, [1215]) .leaf) 1215 1215 (.valid, []) .leaf) 1216 1216 (.disallowed, []) (.node .leaf 1217 1217 (.mapped, [1218]) .leaf)) 1218 1218 (.valid, []) (.node (.node .leaf 1219 1219 (.mapped, [1220]) .leaf) 1220 1220 (.valid, []) (.node .leaf 1221 1221 (.mapped, [1222]) .leaf))) 1222 1222 (.valid, []) (.node (.node (.node .leaf 1223 1223 (.mapped, [1224]) .leaf) 1224 1224 (.valid, []) (.node .leaf 1225 1225 (.mapped, [1226]) .leaf)) 1226 1226 (.valid, []) (.node (.node .leaf 1227 1227 (.mapped, [1228]) .leaf) 1228 1228 (.valid, []) (.node .leaf 1229 1229 (.mapped, [1230]) .leaf))))) 1230 1230 (.valid, []) (.node (.node (.node (.node (.node (.node .leaf 1231 1231 (.valid, []) .leaf) 1232 1232 (.mapped, [1233]) .leaf) 1233 1233 (.valid, []) (.node .leaf 1234 1234 (.mapped, [1235]) .leaf)) 1235 1235 (.valid, []) (.node (.node .leaf 1236 1236 (.mapped, [1237]) .leaf) 1237 1237 (.valid, []) (.node .leaf 1238 1238 (.mapped, [1239]) .leaf))) 1239 1239 (.valid, []) (.node (.node (.node .leaf 1240 1240 (.mapped, [1241]) .leaf) 1241 1241 (.valid, []) (.node .leaf 1242 1242 (.mapped, [1243]) .leaf)) 1243 1243 (.valid, []) (.node (.node .leaf 1244 1244 (.mapped, [1245]) .leaf) 1245 1245 (.valid, []) (.node .leaf 1246 1246 (.mapped, [1247]) .leaf)))) 1247 1247 (.valid, []) (.node (.node (.node (.node (.node .leaf 1248 1248 (.mapped, [1249]) .leaf) 1249 1249 (.valid, []) .leaf) 1250 1250 (.mapped, [1251]) (.node .leaf 1251 1251 (.valid, []) .leaf)) 1252 1252 (.mapped, [1253]) (.node (.node .leaf 1253 1253 (.valid, []) .leaf) 1254 1254 (.mapped, [1255]) (.node .leaf 1255 1255 (.valid, []) .leaf))) 1256 1256 (.mapped, [1257]) (.node (.node (.node .leaf 1257 1257 (.valid, []) .leaf) 1258 1258 (.mapped, [1259]) (.node .leaf 1259 1259 (.valid, []) .leaf)) 1260 1260 (.mapped, [1261]) (.node (.node .leaf 1261 1261 (.valid, []) .leaf) 1262 1262 (.mapped, [1263]) (.node .leaf 1263 1263 (.valid, []) .leaf)))))) 1264 1264 (.mapped, [1265]) (.node (.node (.node (.node (.node (.node (.node .leaf 1265 1265 (.valid, []) .leaf) 1266 1266 (.mapped, [1267]) .leaf) 1267 1267 (.valid, []) (.node .leaf 1268 1268 (.mapped, [1269]) .leaf)) 1269 1269 (.valid, []) (.node (.node .leaf 1270 1270 (.mapped, [1271]) .leaf) 1271 1271 (.valid, []) (.node .leaf 1272 1272 (.mapped, [1273]) .leaf))) 1273 1273 (.valid, []) (.node (.node (.node .leaf 1274 1274 (.mapped, [1275]) .leaf) 1275 1275 (.valid, []) (.node .leaf 1276 1276 (.mapped, [1277]) .leaf)) 1277 1277 (.valid, []) (.node (.node .leaf 1278 1278 (.mapped, [1279]) .leaf) 1279 1279 (.valid, []) (.node .leaf 1280 1280 (.mapped, [1281]) .leaf)))) 1281 1281 (.valid, []) (.node (.node (.node (.node (.node .leaf 1282 1282 (.mapped, [1283]) .leaf) 1283 1283 (.valid, []) .leaf) 1284 1284 (.mapped, [1285]) (.node .leaf 1285 1285 (.valid, []) .leaf)) 1286 1286 (.mapped, [1287]) (.node (.node .leaf 1287 1287 (.valid, []) .leaf) 1288 1288 (.mapped, [1289]) (.node .leaf 1289 1289 (.valid, []) .leaf))) 1290 1290 (.mapped, [1291]) (.node (.node (.node .leaf 1291 1291 (.valid, []) .leaf) 1292 1292 (.mapped, [1293]) (.node .leaf 1293 1293 (.valid, []) .leaf)) 1294 1294 (.mapped, [1295]) (.node (.node .leaf 1295 1295 (.valid, []) .leaf) 1296 1296 (.mapped, [1297]) (.node .leaf 1297 1297 (.valid, []) .leaf))))) 1298 1298 (.mapped, [1299]) (.node (.node (.node (.node (.node (.node .leaf 1299 1299 (.valid, []) .leaf) 1300 1300 (.mapped, [1301]) .leaf) 1301 1301 (.valid, []) (.node .leaf 1302 1302 (.mapped, [1303]) .leaf)) 1303 1303 (.valid, []) (.node (.node .leaf 1304 1304 (.mapped, [1305]) .leaf) 1305 1305 (.valid, []) (.node .leaf 1306 1306 (.mapped, [1307]) .leaf))) 1307 1307 (.valid, []) (.node (.node (.node .leaf 1308 1308 (.mapped, [1309]) .leaf) 1309 1309 (.valid, []) (.node .leaf 1310 1310 (.mapped, [1311]) .leaf)) 1311 1311 (.valid, []) (.node (.node .leaf 1312 1312 (.mapped, [1313]) .leaf) 1313 1313 (.valid, []) (.node .leaf 1314 1314 (.mapped, [1315]) .leaf)))) 1315 1315 (.valid, []) (.node (.node (.node (.node (.node .leaf 1316 1316 (.mapped, [1317]) .leaf) 1317 1317 (.valid, []) .leaf) 1318 1318 (.mapped, [1319]) (.node .leaf 1319 1319 (.valid, []) .leaf)) 1320 1320 (.mapped, [1321]) (.node (.node .leaf 1321 1321 (.valid, []) .leaf) 1322 1322 (.mapped, [1323]) (.node .leaf 1323 1323 (.valid, []) .leaf))) 1324 1324 (.mapped, [1325]) (.node (.node (.node .leaf 1325 1325 (.valid, []) .leaf) 1326 1326 (.mapped, [1327]) (.node .leaf 1327 1327 (.valid, []) .leaf)) 1328 1328 (.disallowed, []) (.node (.node .leaf 1329 1329 (.mapped, [1377]) .leaf) 1330 1330 (.mapped, [1378]) (.node .leaf 1331 1331 (.mapped, [1379]) .leaf))))))))

def idnaTable3 : RTree (Status × List Nat) := (.node (.node (.node (.node (.node (.node (.node (.node (.node .leaf 1333 1333 (.mapped, [1381]) .leaf) 1334 1334 (.mapped, [1382]) .leaf) 1335 1335 (.mapped, [1383]) (.node .leaf 1336 1336 (.mapped, [1384]) .leaf)) 1337 1337 (.mapped, [1385]) (.node (.node .leaf 1338 1338 (.mapped, [1386]) .leaf) 1339 1339 (.mapped, [1387]) (.node .leaf 1340 1340 (.mapped, [1388]) .leaf))) 1341 1341 (.mapped, [1389]) (.node (.node (.node .leaf 1342 1342 (.mapped, [1390]) .leaf) 1343 1343 (.mapped, [1391]) (.node .leaf 1344 1344 (.mapped, [1392]) .leaf)) 1345 1345 (.mapped, [1393]) (.node (.node .leaf 1346 1346 (.mapped, [1394]) .leaf) 1347 1347 (.mapped, [1395]) (.node .leaf 1348 1348 (.mapped, [1396]) .leaf)))) 1349 1349 (.mapped, [1397]) (.node (.node (.node (.node (.node .leaf 1350 1350 (.mapped, [1398]) .leaf) 1351 1351 (.mapped, [1399]) .leaf) 1352 1352 (.mapped, [1400]) (.node .leaf 1353 1353 (.mapped, [1401]) .leaf)) 1354 1354 (.mapped, [1402]) (.node (.node .leaf 1355 1355 (.mapped, [1403]) .leaf) 1356 1356 (.mapped, [1404]) (.node .leaf 1357 1357 (.mapped, [1405]) .leaf))) 1358 1358 (.mapped, [1406]) (.node (.node (.node .leaf 1359 1359 (.mapped, [1407]) .leaf) 1360 1360 (.mapped, [1408]) (.node .leaf 1361 1361 (.mapped, [1409]) .leaf)) 1362 1362 (.mapped, [1410]) (.node (.node .leaf 1363 1363 (.mapped, [1411]) .leaf) 1364 1364 (.mapped, [1412]) (.node .leaf 1365 1365 (.mapped, [1413]) .leaf))))) 1366 1366 (.mapped, [1414]) (.node (.node (.node (.node (.node (.node .leaf 1367 1368 (.disallowed, []) .leaf) 1369 1369 (.valid, []) .leaf) 1370 1375 (.valid, []) (.node .leaf 1376 1376 (.valid, []) .leaf)) 1377 1414 (.valid, []) (.node (.node .leaf 1415 1415 (.mapped, [1381, 1410]) .leaf) 1416 1416 (.valid, []) (.node .leaf 1417 1417 (.valid, []) .leaf))) 1418 1418 (.valid, []) (.node (.node (.node .leaf 1419 1420 (.disallowed, []) .leaf) 1421 1422 (.valid, []) (.node .leaf 1423 1423 (.valid, []) .leaf)) 1424 1424 (.disallowed, []) (.node (.node .leaf 1425 1441 (.valid, []) .leaf) 1442 1442 (.valid, []) (.node .leaf 1443 1455 (.valid, []) .leaf)))) 1456 1465 (.valid, []) (.node (.node (.node (.node (.node .leaf 1466 1466 (.valid, []) .leaf) 1467 1469 (.valid, []) .leaf) 1470 1470 (.valid, []) (.node .leaf 1471 1471 (.valid, []) .leaf)) 1472 1472 (.valid, []) (.node (.node .leaf 1473 1474 (.valid, []) .leaf) 1475 1475 (.valid, []) (.node .leaf 1476 1476 (.valid, []) .leaf))) 1477 1477 (.valid, []) (.node (.node (.node .leaf 1478 1478 (.valid, []) .leaf) 1479 1479 (.valid, []) (.node .leaf 1480 1487 (.disallowed, []) .leaf)) 1488 1514 (.valid, []) (.node (.node .leaf 1515 1518 (.disallowed, []) .leaf) 1519 1519 (.valid, []) (.node .leaf 1520 1524 (.valid, []) .leaf)))))) 1525 1535 (.disallowed, []) (.node (.node (.node (.node (.node (.node (.node .leaf 1536 1539 (.disallowed, []) .leaf) 1540 1540 (.disallowed, []) .leaf) 1541 1541 (.disallowed, []) (.node .leaf 1542 1546 (.valid, []) .leaf)) 1547 1547 (.valid, []) (.node (.node .leaf 1548 1548 (.valid, []) .leaf) 1549 1551 (.valid, []) (.node .leaf 1552 1557 (.valid, []) .leaf))) 1558 1562 (.valid, []) (.node (.node (.node .leaf 1563 1563 (.valid, []) .leaf) 1564 1564 (.disallowed, []) (.node .leaf 1565 1565 (.disallowed, []) .leaf)) 1566 1566 (.valid, []) (.node (.node .leaf 1567 1567 (.valid, []) .leaf) 1568 1568 (.valid, []) (.node .leaf 1569 1594 (.valid, []) .leaf)))) 1595 1599 (.valid, []) (.node (.node (.node (.node (.node .leaf 1600 1600 (.valid, []) .leaf) 1601 1618 (.valid, []) .leaf) 1619 1621 (.valid, []) (.node .leaf 1622 1624 (.valid, []) .leaf)) 1625 1630 (.valid, []) (.node (.node .leaf 1631 1631 (.valid, []) .leaf) 1632 1641 (.valid, []) (.node .leaf 1642 1645 (.valid, []) .leaf))) 1646 1647 (.valid, []) (.node (.node (.node .leaf 1648 1652 (.valid, []) .leaf) 1653 1653 (.mapped, [1575, 1652]) (.node .leaf 1654 1654 (.mapped, [1608, 1652]) .leaf)) 1655 1655 (.mapped, [1735, 1652]) (.node (.node .leaf 1656 1656 (.mapped, [1610, 1652]) .leaf) 1657 1719 (.valid, []) (.node .leaf 1720 1721 (.valid, []) .leaf))))) 1722 1726 (.valid, []) (.node (.node (.node (.node (.node (.node .leaf 1727 1727 (.valid, []) .leaf) 1728 1742 (.valid, []) .leaf) 1743 1743 (.valid, []) (.node .leaf 1744 1747 (.valid, []) .leaf)) 1748 1748 (.valid, []) (.node (.node .leaf 1749 1756 (.valid, []) .leaf) 1757 1757 (.disallowed, []) (.node .leaf 1758 1758 (.valid, []) .leaf))) 1759 1768 (.valid, []) (.node (.node (.node .leaf 1769 1769 (.valid, []) .leaf) 1770 1773 (.valid, []) (.node .leaf 1774 1775 (.valid, []) .leaf)) 1776 1785 (.valid, []) (.node (.node .leaf 1786 1790 (.valid, []) .leaf) 1791 1791 (.valid, []) (.node .leaf 1792 1805 (.valid, []) .leaf)))) 1806 1806 (.disallowed, []) (.node (.node (.node (.node (.node .leaf 1807 1807 (.disallowed, []) .leaf) 1808 1836 (.valid, []) .leaf) 1837 1839 (.valid, []) (.node .leaf 1840 1866 (.valid, []) .leaf)) 1867 1868 (.disallowed, []) (.node (.node .leaf 1869 1871 (.valid, []) .leaf) 1872 1901 (.valid, []) (.node .leaf 1902 1919 (.valid, []) .leaf))) 1920 1968 (.valid, []) (.node (.node (.node .leaf 1969 1969 (.valid, []) .leaf) 1970 1983 (.disallowed, []) (.node .leaf 1984 2037 (.valid, []) .leaf)) 2038 2042 (.valid, []) (.node (.node .leaf 2043 2044 (.disallowed, []) .leaf) 2045 2045 (.valid, []) (.node .leaf 2046 2047 (.valid, []) .leaf))))))) 2048 2093 (.valid, []) (.node (.node (.node (.node (.node (.node (.node (.node .leaf 2094 2095 (.disallowed, []) .leaf) 2096 2110 (.valid, []) .leaf) 2111 2111 (.disallowed, []) (.node .leaf 2112 2139 (.valid, []) .leaf)) 2140 2141 (.disallowed, []) (.node (.node .leaf 2142 2142 (.valid, []) .leaf) 2143 2143 (.disallowed, []) (.node .leaf 2144 2154 (.valid, []) .leaf))) 2155 2207 (.disallowed, []) (.node (.node (.node .leaf 2208 2208 (.valid, []) .leaf) 2209 2209 (.valid, []) (.node .leaf 2210 2220 (.valid, []) .leaf)) 2221 2226 (.valid, []) (.node (.node .leaf 2227 2228 (.valid, []) .leaf) 2229 2229 (.disallowed, []) (.node .leaf 2230 2237 (.valid, []) .leaf)))) 2238 2247 (.valid, []) (.node (.node (.node (.node (.node .leaf 2248 2258 (.disallowed, []) .leaf) 2259 2259 (.valid, []) .leaf) 2260 2273 (.valid, []) (.node .leaf 2274 2274 (.disallowed, []) .leaf)) 2275 2275 (.valid, []) (.node (.node .leaf 2276 2302 (.valid, []) .leaf) 2303 2303 (.valid, []) (.node .leaf 2304 2304 (.valid, []) .leaf))) 2305 2307 (.valid, []) (.node (.node (.node .leaf 2308 2308 (.valid, []) .leaf) 2309 2361 (.valid, []) (.node .leaf 2362 2363 (.valid, []) .leaf)) 2364 2381 (.valid, []) (.node (.node .leaf 2382 2382 (.valid, []) .leaf) 2383 2383 (.valid, []) (.node .leaf 2384 2388 (.valid, []) .leaf))))) 2389 2389 (.valid, []) (.node (.node (.node (.node (.node (.node .leaf 2390 2391 (.valid, []) .leaf) 2392 2392 (.mapped, [2325, 2364]) .leaf) 2393 2393 (.mapped, [2326, 2364]) (.node .leaf 2394 2394 (.mapped, [2327, 2364]) .leaf)) 2395 2395 (.mapped, [2332, 2364]) (.node (.node .leaf 2396 2396 (.mapped, [2337, 2364]) .leaf) 2397 2397 (.mapped, [2338, 2364]) (.node .leaf 2398 2398 (.mapped, [2347, 2364]) .leaf))) 2399 2399 (.mapped, [2351, 2364]) (.node (.node (.node .leaf 2400 2403 (.valid, []) .leaf) 2404 2405 (.valid, []) (.node .leaf 2406 2415 (.valid, []) .leaf)) 2416 2416 (.valid, []) (.node (.node .leaf 2417 2418 (.valid, []) .leaf) 2419 2423 (.valid, []) (.node .leaf 2424 2424 (.valid, []) .leaf)))) 2425 2426 (.valid, []) (.node (.node (.node (.node (.node .leaf 2427 2428 (.valid, []) .leaf) 2429 2429 (.valid, []) .leaf) 2430 2431 (.valid, []) (.node .leaf 2432 2432 (.valid, []) .leaf)) 2433 2435 (.valid, []) (.node (.node .leaf 2436 2436 (.disallowed, []) .leaf) 2437 2444 (.valid, []) (.node .leaf 2445 2446 (.disallowed, []) .leaf))) 2447 2448 (.valid, []) (.node (.node (.node .leaf 2449 2450 (.disallowed, []) .leaf) 2451 2472 (.valid, []) (.node .leaf 2473 2473 (.disallowed, []) .leaf)) 2474 2480 (.valid, []) (.node (.node .leaf 2481 2481 (.disallowed, []) .leaf) 2482 2482 (.valid, []) (.node .leaf 2483 2485 (.disallowed, []) .leaf)))))) 2486 2489 (.valid, []) (.node (.node (.node (.node (.node (.node (.node .leaf 2490 2491 (.disallowed, []) .leaf) 2492 2492 (.valid, []) .leaf) 2493 2493 (.valid, []) (.node .leaf 2494 2500 (.valid, []) .leaf)) 2501 2502 (.disallowed, []) (.node (.node .leaf 2503 2504 (.valid, []) .leaf) 2505 2506 (.disallowed, []) (.node .leaf 2507 2509 (.valid, []) .leaf))) 2510 2510 (.valid, []) (.node (.node (.node .leaf 2511 2518 (.disallowed, []) .leaf) 2519 2519 (.valid, []) (.node .leaf 2520 2523 (.disallowed, []) .leaf)) 2524 2524 (.mapped, [2465, 2492]) (.node (.node .leaf 2525 2525 (.mapped, [2466, 2492]) .leaf) 2526 2526 (.disallowed, []) (.node .leaf 2527 2527 (.mapped, [2479, 2492]) .leaf)))) 2528 2531 (.valid, []) (.node (.node (.node (.node (.node .leaf 2532 2533 (.disallowed, []) .leaf) 2534 2545 (.valid, []) .leaf) 2546 2554 (.valid, []) (.node .leaf 2555 2555 (.valid, []) .leaf)) 2556 2556 (.valid, []) (.node (.node .leaf 2557 2557 (.valid, []) .leaf) 2558 2558 (.valid, []) (.node .leaf 2559 2560 (.disallowed, []) .leaf))) 2561 2561 (.valid, []) (.node (.node (.node .leaf 2562 2562 (.valid, []) .leaf) 2563 2563 (.valid, []) (.node .leaf 2564 2564 (.disallowed, []) .leaf)) 2565 2570 (.valid, []) (.node (.node .leaf 2571 2574 (.disallowed, []) .leaf) 2575 2576 (.valid, []) (.node .leaf 2577 2578 (.disallowed, []) .leaf))))) 2579 2600 (.valid, []) (.node (.node (.node (.node (.node (.node .leaf 2601 2601 (.disallowed, []) .leaf) 2602 2608 (.valid, []) .leaf) 2609 2609 (.disallowed, []) (.node .leaf 2610 2610 (.valid, []) .leaf)) 2611 2611 (.mapped, [2610, 2620]) (.node (.node .leaf 2612 2612 (.disallowed, []) .leaf) 2613 2613 (.valid, []) (.node .leaf 2614 2614 (.mapped, [2616, 2620]) .leaf))) 2615 2615 (.disallowed, []) (.node (.node (.node .leaf 2616 2617 (.valid, []) .leaf) 2618 2619 (.disallowed, []) (.node .leaf 2620 2620 (.valid, []) .leaf)) 2621 2621 (.disallowed, []) (.node (.node .leaf 2622 2626 (.valid, []) .leaf) 2627 2630 (.disallowed, []) (.node .leaf 2631 2632 (.valid, []) .leaf)))) 2633 2634 (.disallowed, []) (.node (.node (.node (.node (.node .leaf 2635 2637 (.valid, []) .leaf) 2638 2640 (.disallowed, []) .leaf) 2641 2641 (.valid, []) (.node .leaf 2642 2648 (.disallowed, []) .leaf)) 2649 2649 (.mapped, [2582, 2620]) (.node (.node .leaf 2650 2650 (.mapped, [2583, 2620]) .leaf) 2651 2651 (.mapped, [2588, 2620]) (.node .leaf 2652 2652 (.valid, []) .leaf))) 2653 2653 (.disallowed, []) (.node (.node (.node .leaf 2654 2654 (.mapped, [2603, 2620]) .leaf) 2655 2661 (.disallowed, []) (.node .leaf 2662 2676 (.valid, []) .leaf)) 2677 2677 (.valid, []) (.node (.node .leaf 2678 2678 (.valid, []) .leaf) 2679 2688 (.disallowed, []) (.node .leaf 2689 2691 (.valid, []) .leaf))))))))

def idnaTable4 : RTree (Status × List Nat) := (.node (.node (.node (.node (.node (.node (.node (.node (.node .leaf 2693 2699 (.valid, []) .leaf) 2700 2700 (.valid, []) .leaf) 2701 2701 (.valid, []) (.node .leaf 2702 2702 (.disallowed, []) .leaf)) 2703 2705 (.valid, []) (.node (.node .leaf 2706 2706 (.disallowed, []) .leaf) 2707 2728 (.valid, []) (.node .leaf 2729 2729 (.disallowed, []) .leaf))) 2730 2736 (.valid, []) (.node (.node (.node (.node .leaf 2737 2737 (.disallowed, []) .leaf) 2738 2739 (.valid, []) .leaf) 2740 2740 (.disallowed, []) (.node .leaf 2741 2745 (.valid, []) .leaf)) 2746 2747 (.disallowed, []) (.node (.node .leaf 2748 2757 (.valid, []) .leaf) 2758 2758 (.disallowed, []) (.node .leaf 2759 2761 (.valid, []) .leaf)))) 2762 2762 (.disallowed, []) (.node (.node (.node (.node (.node .leaf 2763 2765 (.valid, []) .leaf) 2766 2767 (.disallowed, []) .leaf) 2768 2768 (.valid, []) (.node .leaf 2769 2783 (.disallowed, []) .leaf)) 2784 2784 (.valid, []) (.node (.node .leaf 2785 2787 (.valid, []) .leaf) 2788 2789 (.disallowed, []) (.node .leaf 2790 2799 (.valid, []) .leaf))) 2800 2800 (.valid, []) (.node (.node (.node .leaf 2801 2801 (.valid, []) .leaf) 2802 2808 (.disallowed, []) (.node .leaf 2809 2809 (.valid, []) .leaf)) 2810 2815 (.valid, []) (.node (.node .leaf 2816 2816 (.disallowed, []) .leaf) 2817 2819 (.valid, []) (.node .leaf 2820 2820 (.disallowed, []) .leaf))))) 2821 2828 (.valid, []) (.node (.node (.node (.node (.node (.node .leaf 2829 2830 (.disallowed, []) .leaf) 2831 2832 (.valid, []) .leaf) 2833 2834 (.disallowed, []) (.node .leaf 2835 2856 (.valid, []) .leaf)) 2857 2857 (.disallowed, []) (.node (.node .leaf 2858 2864 (.valid, []) .leaf) 2865 2865 (.disallowed, []) (.node .leaf 2866 2867 (.valid, []) .leaf))) 2868 2868 (.disallowed, []) (.node (.node (.node .leaf 2869 2869 (.valid, []) .leaf) 2870 2873 (.valid, []) (.node .leaf 2874 2875 (.disallowed, []) .leaf)) 2876 2883 (.valid, []) (.node (.node .leaf 2884 2884 (.valid, []) .leaf) 2885 2886 (.disallowed, []) (.node .leaf 2887 2888 (.valid, []) .leaf)))) 2889 2890 (.disallowed, []) (.node (.node (.node (.node (.node .leaf 2891 2893 (.valid, []) .leaf) 2894 2900 (.disallowed, []) .leaf) 2901 2901 (.valid, []) (.node .leaf 2902 2903 (.valid, []) .leaf)) 2904 2907 (.disallowed, []) (.node (.node .leaf 2908 2908 (.mapped, [2849, 2876]) .leaf) 2909 2909 (.mapped, [2850, 2876]) (.node .leaf 2910 2910 (.disallowed, []) .leaf))) 2911 2913 (.valid, []) (.node (.node (.node .leaf 2914 2915 (.valid, []) .leaf) 2916 2917 (.disallowed, []) (.node .leaf 2918 2927 (.valid, []) .leaf)) 2928 2928 (.valid, []) (.node (.node .leaf 2929 2929 (.valid, []) .leaf) 2930 2935 (.valid, []) (.node .leaf 2936 2945 (.disallowed, []) .leaf)))))) 2946 2947 (.valid, []) (.node (.node (.node (.node (.node (.node (.node .leaf 2948 2948 (.disallowed, []) .leaf) 2949 2954 (.valid, []) .leaf) 2955 2957 (.disallowed, []) (.node .leaf 2958 2960 (.valid, []) .leaf)) 2961 2961 (.disallowed, []) (.node (.node .leaf 2962 2965 (.valid, []) .leaf) 2966 2968 (.disallowed, []) (.node .leaf 2969 2970 (.valid, []) .leaf))) 2971 2971 (.disallowed, []) (.node (.node (.node .leaf 2972 2972 (.valid, []) .leaf) 2973 2973 (.disallowed, []) (.node .leaf 2974 2975 (.valid, []) .leaf)) 2976 2978 (.disallowed, []) (.node (.node .leaf 2979 2980 (.valid, []) .leaf) 2981 2983 (.disallowed, []) (.node .leaf 2984 2986 (.valid, []) .leaf)))) 2987 2989 (.disallowed, []) (.node (.node (.node (.node (.node .leaf 2990 2997 (.valid, []) .leaf) 2998 2998 (.valid, []) .leaf) 2999 3001 (.valid, []) (.node .leaf 3002 3005 (.disallowed, []) .leaf)) 3006 3010 (.valid, []) (.node (.node .leaf 3011 3013 (.disallowed, []) .leaf) 3014 3016 (.valid, []) (.node .leaf 3017 3017 (.disallowed, []) .leaf))) 3018 3021 (.valid, []) (.node (.node (.node .leaf 3022 3023 (.disallowed, []) .leaf) 3024 3024 (.valid, []) (.node .leaf 3025 3030 (.disallowed, []) .leaf)) 3031 3031 (.valid, []) (.node (.node .leaf 3032 3045 (.disallowed, []) .leaf) 3046 3046 (.valid, []) (.node .leaf 3047 3055 (.valid, []) .leaf))))) 3056 3058 (.valid, []) (.node (.node (.node (.node (.node (.node .leaf 3059 3066 (.valid, []) .leaf) 3067 3071 (.disallowed, []) .leaf) 3072 3072 (.valid, []) (.node .leaf 3073 3075 (.valid, []) .leaf)) 3076 3076 (.valid, []) (.node (.node .leaf 3077 3084 (.valid, []) .leaf) 3085 3085 (.disallowed, []) (.node .leaf 3086 3088 (.valid, []) .leaf))) 3089 3089 (.disallowed, []) (.node (.node (.node .leaf 3090 3112 (.valid, []) .leaf) 3113 3113 (.disallowed, []) (.node .leaf 3114 3123 (.valid, []) .leaf)) 3124 3124 (.valid, []) (.node (.node .leaf 3125 3129 (.valid, []) .leaf) 3130 3132 (.disallowed, []) (.node .leaf 3133 3133 (.valid, []) .leaf)))) 3134 3140 (.valid, []) (.node (.node (.node (.node (.node .leaf 3141 3141 (.disallowed, []) .leaf) 3142 3144 (.valid, []) .leaf) 3145 3145 (.disallowed, []) (.node .leaf 3146 3149 (.valid, []) .leaf)) 3150 3156 (.disallowed, []) (.node (.node .leaf 3157 3158 (.valid, []) .leaf) 3159 3159 (.disallowed, []) (.node .leaf 3160 3161 (.valid, []) .leaf))) 3162 3162 (.valid, []) (.node (.node (.node .leaf 3163 3167 (.disallowed, []) .leaf) 3168 3169 (.valid, []) (.node .leaf 3170 3171 (.valid, []) .leaf)) 3172 3173 (.disallowed, []) (.node (.node .leaf 3174 3183 (.valid, []) .leaf) 3184 3190 (.disallowed, []) (.node .leaf 3191 3191 (.valid, []) .leaf))))))) 3192 3199 (.valid, []) (.node (.node (.node (.node (.node (.node (.node (.node .leaf 3200 3200 (.valid, []) .leaf) 3201 3201 (.valid, []) .leaf) 3202 3203 (.valid, []) (.node .leaf 3204 3204 (.valid, []) .leaf)) 3205 3212 (.valid, []) (.node (.node .leaf 3213 3213 (.disallowed, []) .leaf) 3214 3216 (.valid, []) (.node .leaf 3217 3217 (.disallowed, []) .leaf))) 3218 3240 (.valid, []) (.node (.node (.node .leaf 3241 3241 (.disallowed, []) .leaf) 3242 3251 (.valid, []) (.node .leaf 3252 3252 (.disallowed, []) .leaf)) 3253 3257 (.valid, []) (.node (.node .leaf 3258 3259 (.disallowed, []) .leaf) 3260 3261 (.valid, []) (.node .leaf 3262 3268 (.valid, []) .leaf)))) 3269 3269 (.disallowed, []) (.node (.node (.node (.node (.node .leaf 3270 3272 (.valid, []) .leaf) 3273 3273 (.disallowed, []) .leaf) 3274 3277 (.valid, []) (.node .leaf 3278 3284 (.disallowed, []) .leaf)) 3285 3286 (.valid, []) (.node (.node .leaf 3287 3293 (.disallowed, []) .leaf) 3294 3294 (.valid, []) (.node .leaf 3295 3295 (.disallowed, []) .leaf))) 3296 3297 (.valid, []) (.node (.node (.node .leaf 3298 3299 (.valid, []) .leaf) 3300 3301 (.disallowed, []) (.node .leaf 3302 3311 (.valid, []) .leaf)) 3312 3312 (.disallowed, []) (.node (.node .leaf 3313 3314 (.valid, []) .leaf) 3315 3327 (.disallowed, []) (.node .leaf 3328 3328 (.valid, []) .leaf))))) 3329 3329 (.valid, []) (.node (.node (.node (.node (.node (.node .leaf 3330 3331 (.valid, []) .leaf) 3332 3332 (.valid, []) .leaf) 3333 3340 (.valid, []) (.node .leaf 3341 3341 (.disallowed, []) .leaf)) 3342 3344 (.valid, []) (.node (.node .leaf 3345 3345 (.disallowed, []) .leaf) 3346 3368 (.valid, []) (.node .leaf 3369 3369 (.valid, []) .leaf))) 3370 3385 (.valid, []) (.node (.node (.node .leaf 3386 3386 (.valid, []) .leaf) 3387 3388 (.valid, []) (.node .leaf 3389 3389 (.valid, []) .leaf)) 3390 3395 (.valid, []) (.node (.node .leaf 3396 3396 (.valid, []) .leaf) 3397 3397 (.disallowed, []) (.node .leaf 3398 3400 (.valid, []) .leaf)))) 3401 3401 (.disallowed, []) (.node (.node (.node (.node (.node .leaf 3402 3405 (.valid, []) .leaf) 3406 3406 (.valid, []) .leaf) 3407 3407 (.valid, []) (.node .leaf 3408 3411 (.disallowed, []) .leaf)) 3412 3414 (.valid, []) (.node (.node .leaf 3415 3415 (.valid, []) .leaf) 3416 3422 (.valid, []) (.node .leaf 3423 3423 (.valid, []) .leaf))) 3424 3425 (.valid, []) (.node (.node (.node .leaf 3426 3427 (.valid, []) .leaf) 3428 3429 (.disallowed, []) (.node .leaf 3430 3439 (.valid, []) .leaf)) 3440 3445 (.valid, []) (.node (.node .leaf 3446 3448 (.valid, []) .leaf) 3449 3449 (.valid, []) (.node .leaf 3450 3455 (.valid, []) .leaf)))))) 3456 3456 (.disallowed, []) (.node (.node (.node (.node (.node (.node (.node .leaf 3457 3457 (.valid, []) .leaf) 3458 3459 (.valid, []) .leaf) 3460 3460 (.disallowed, []) (.node .leaf 3461 3478 (.valid, []) .leaf)) 3479 3481 (.disallowed, []) (.node (.node .leaf 3482 3505 (.valid, []) .leaf) 3506 3506 (.disallowed, []) (.node .leaf 3507 3515 (.valid, []) .leaf))) 3516 3516 (.disallowed, []) (.node (.node (.node .leaf 3517 3517 (.valid, []) .leaf) 3518 3519 (.disallowed, []) (.node .leaf 3520 3526 (.valid, []) .leaf)) 3527 3529 (.disallowed, []) (.node (.node .leaf 3530 3530 (.valid, []) .leaf) 3531 3534 (.disallowed, []) (.node .leaf 3535 3540 (.valid, []) .leaf)))) 3541 3541 (.disallowed, []) (.node (.node (.node (.node (.node .leaf 3542 3542 (.valid, []) .leaf) 3543 3543 (.disallowed, []) .leaf) 3544 3551 (.valid, []) (.node .leaf 3552 3557 (.disallowed, []) .leaf)) 3558 3567 (.valid, []) (.node (.node .leaf 3568 3569 (.disallowed, []) .leaf) 3570 3571 (.valid, []) (.node .leaf 3572 3572 (.valid, []) .leaf))) 3573 3584 (.disallowed, []) (.node (.node (.node .leaf 3585 3634 (.valid, []) .leaf) 3635 3635 (.mapped, [3661, 3634]) (.node .leaf 3636 3642 (.valid, []) .leaf)) 3643 3646 (.disallowed, []) (.node (.node .leaf 3647 3647 (.valid, []) .leaf) 3648 3662 (.valid, []) (.node .leaf 3663 3663 (.valid, []) .leaf))))) 3664 3673 (.valid, []) (.node (.node (.node (.node (.node (.node .leaf 3674 3675 (.valid, []) .leaf) 3676 3712 (.disallowed, []) .leaf) 3713 3714 (.valid, []) (.node .leaf 3715 3715 (.disallowed, []) .leaf)) 3716 3716 (.valid, []) (.node (.node .leaf 3717 3717 (.disallowed, []) .leaf) 3718 3718 (.valid, []) (.node .leaf 3719 3720 (.valid, []) .leaf))) 3721 3721 (.valid, []) (.node (.node (.node .leaf 3722 3722 (.valid, []) .leaf) 3723 3723 (.disallowed, []) (.node .leaf 3724 3724 (.valid, []) .leaf)) 3725 3725 (.valid, []) (.node (.node .leaf 3726 3731 (.valid, []) .leaf) 3732 3735 (.valid, []) (.node .leaf 3736 3736 (.valid, []) .leaf)))) 3737 3743 (.valid, []) (.node (.node (.node (.node (.node .leaf 3744 3744 (.valid, []) .leaf) 3745 3747 (.valid, []) .leaf) 3748 3748 (.disallowed, []) (.node .leaf 3749 3749 (.valid, []) .leaf)) 3750 3750 (.disallowed, []) (.node (.node .leaf 3751 3751 (.valid, []) .leaf) 3752 3753 (.valid, []) (.node .leaf 3754 3755 (.valid, []) .leaf))) 3756 3756 (.valid, []) (.node (.node (.node .leaf 3757 3762 (.valid, []) .leaf) 3763 3763 (.mapped, [3789, 3762]) (.node .leaf 3764 3769 (.valid, []) .leaf)) 3770 3770 (.valid, []) (.node (.node .leaf 3771 3773 (.valid, []) .leaf) 3774 3775 (.disallowed, []) (.node .leaf 3776 3780 (.valid, []) .leaf))))))))

def idnaTable5 : RTree (Status × List Nat) := (.node (.node (.node (.node (.node (.node (.node (.node (.node .leaf 3782 3782 (.valid, []) .leaf) 3783 3783 (.disallowed, []) .leaf) 3784 3789 (.valid, []) (.node .leaf 3790 3791 (.disallowed, []) .leaf)) 3792 3801 (.valid, []) (.node (.node .leaf 3802 3803 (.disallowed, []) .leaf) 3804 3804 (.mapped, [3755, 3737]) (.node .leaf 3805 3805 (.mapped, [3755, 3745]) .leaf))) 3806 3807 (.valid, []) (.node (.node (.node .leaf 3808 3839 (.disallowed, []) .leaf) 3840 3840 (.valid, []) (.node .leaf 3841 3850 (.valid, []) .leaf)) 3851 3851 (.valid, []) (.node (.node .leaf 3852 3852 (.mapped, [3851]) .leaf) 3853 3863 (.valid, []) (.node .leaf 3864 3865 (.valid, []) .leaf)))) 3866 3871 (.valid, []) (.node (.node (.node (.node (.node .leaf 3872 3881 (.valid, []) .leaf) 3882 3892 (.valid, []) .leaf) 3893 3893 (.valid, []) (.node .leaf 3894 3894 (.valid, []) .leaf)) 3895 3895 (.valid, []) (.node (.node .leaf 3896 3896 (.valid, []) .leaf) 3897 3897 (.valid, []) (.node .leaf 3898 3901 (.valid, []) .leaf))) 3902 3906 (.valid, []) (.node (.node (.node .leaf 3907 3907 (.mapped, [3906, 4023]) .leaf) 3908 3911 (.valid, []) (.node .leaf 3912 3912 (.disallowed, []) .leaf)) 3913 3916 (.valid, []) (.node (.node .leaf 3917 3917 (.mapped, [3916, 4023]) .leaf) 3918 3921 (.valid, []) (.node .leaf 3922 3922 (.mapped, [3921, 4023]) .leaf))))) 3923 3926 (.valid, []) (.node (.node (.node (.node (.node (.node .leaf 3927 3927 (.mapped, [3926, 4023]) .leaf) 3928 3931 (.valid, []) .leaf) 3932 3932 (.mapped, [3931, 4023]) (.node .leaf 3933 3944 (.valid, []) .leaf)) 3945 3945 (.mapped, [3904, 4021]) (.node (.node .leaf 3946 3946 (.valid, []) .leaf) 3947 3948 (.valid, []) (.node .leaf 3949 3952 (.disallowed, []) .leaf))) 3953 3954 (.valid, []) (.node (.node (.node .leaf 3955 3955 (.mapped, [3953, 3954]) .leaf) 3956 3956 (.valid, []) (.node .leaf 3957 3957 (.mapped, [3953, 3956]) .leaf)) 3958 3958 (.mapped, [4018, 3968]) (.node (.node .leaf 3959 3959 (.mapped, [4018, 3953, 3968]) .leaf) 3960 3960 (.mapped, [4019, 3968]) (.node .leaf 3961 3961 (.mapped, [4019, 3953, 3968]) .leaf)))) 3962 3968 (.valid, []) (.node (.node (.node (.node (.node .leaf 3969 3969 (.mapped, [3953, 3968]) .leaf) 3970 3972 (.valid, []) .leaf) 3973 3973 (.valid, []) (.node .leaf 3974 3979 (.valid, []) .leaf)) 3980 3983 (.valid, []) (.node (.node .leaf 3984 3986 (.valid, []) .leaf) 3987 3987 (.mapped, [3986, 4023]) (.node .leaf 3988 3989 (.valid, []) .leaf))) 3990 3990 (.valid, []) (.node (.node (.node .leaf 3991 3991 (.valid, []) .leaf) 3992 3992 (.disallowed, []) (.node .leaf 3993 3996 (.valid, []) .leaf)) 3997 3997 (.mapped, [3996, 4023]) (.node (.node .leaf 3998 4001 (.valid, []) .leaf) 4002 4002 (.mapped, [4001, 4023]) (.node .leaf 4003 4006 (.valid, []) .leaf)))))) 4007 4007 (.mapped, [4006, 4023]) (.node (.node (.node (.node (.node (.node (.node .leaf 4008 4011 (.valid, []) .leaf) 4012 4012 (.mapped, [4011, 4023]) .leaf) 4013 4013 (.valid, []) (.node .leaf 4014 4016 (.valid, []) .leaf)) 4017 4023 (.valid, []) (.node (.node .leaf 4024 4024 (.valid, []) .leaf) 4025 4025 (.mapped, [3984, 4021]) (.node .leaf 4026 4028 (.valid, []) .leaf))) 4029 4029 (.disallowed, []) (.node (.node (.node .leaf 4030 4037 (.valid, []) .leaf) 4038 4038 (.valid, []) (.node .leaf 4039 4044 (.valid, []) .leaf)) 4045 4045 (.disallowed, []) (.node (.node .leaf 4046 4046 (.valid, []) .leaf) 4047 4047 (.valid, []) (.node .leaf 4048 4049 (.valid, []) .leaf)))) 4050 4052 (.valid, []) (.node (.node (.node (.node (.node .leaf 4053 4056 (.valid, []) .leaf) 4057 4058 (.valid, []) .leaf) 4059 4095 (.disallowed, []) (.node .leaf 4096 4129 (.valid, []) .leaf)) 4130 4130 (.valid, []) (.node (.node .leaf 4131 4135 (.valid, []) .leaf) 4136 4136 (.valid, []) (.node .leaf 4137 4138 (.valid, []) .leaf))) 4139 4139 (.valid, []) (.node (.node (.node .leaf 4140 4146 (.valid, []) .leaf) 4147 4149 (.valid, []) (.node .leaf 4150 4153 (.valid, []) .leaf)) 4154 4159 (.valid, []) (.node (.node .leaf 4160 4169 (.valid, []) .leaf) 4170 4175 (.valid, []) (.node .leaf 4176 4185 (.valid, []) .leaf))))) 4186 4249 (.valid, []) (.node (.node (.node (.node (.node (.node .leaf 4250 4253 (.valid, []) .leaf) 4254 4255 (.valid, []) .leaf) 4256 4293 (.disallowed, []) (.node .leaf 4294 4294 (.disallowed, []) .leaf)) 4295 4295 (.mapped, [11559]) (.node (.node .leaf 4296 4300 (.disallowed, []) .leaf) 4301 4301 (.mapped, [11565]) (.node .leaf 4302 4303 (.disallowed, []) .leaf))) 4304 4342 (.valid, []) (.node (.node (.node .leaf 4343 4344 (.valid, []) .leaf) 4345 4346 (.valid, []) (.node .leaf 4347 4347 (.valid, []) .leaf)) 4348 4348 (.mapped, [4316]) (.node (.node .leaf 4349 4351 (.valid, []) .leaf) 4352 4441 (.valid, []) (.node .leaf 4442 4446 (.valid, []) .leaf)))) 4447 4448 (.disallowed, []) (.node (.node (.node (.node (.node .leaf 4449 4514 (.valid, []) .leaf) 4515 4519 (.valid, []) .leaf) 4520 4601 (.valid, []) (.node .leaf 4602 4607 (.valid, []) .leaf)) 4608 4614 (.valid, []) (.node (.node .leaf 4615 4615 (.valid, []) .leaf) 4616 4678 (.valid, []) (.node .leaf 4679 4679 (.valid, []) .leaf))) 4680 4680 (.valid, []) (.node (.node (.node .leaf 4681 4681 (.disallowed, []) .leaf) 4682 4685 (.valid, []) (.node .leaf 4686 4687 (.disallowed, []) .leaf)) 4688 4694 (.valid, []) (.node (.node .leaf 4695 4695 (.disallowed, []) .leaf) 4696 4696 (.valid, []) (.node .leaf 4697 4697 (.disallowed, []) .leaf))))))) 4698 4701 (.valid, []) (.node (.node (.node (.node (.node (.node (.node (.node .leaf 4702 4703 (.disallowed, []) .leaf) 4704 4742 (.valid, []) .leaf) 4743 4743 (.valid, []) (.node .leaf 4744 4744 (.valid, []) .leaf)) 4745 4745 (.disallowed, []) (.node (.node .leaf 4746 4749 (.valid, []) .leaf) 4750 4751 (.disallowed, []) (.node .leaf 4752 4782 (.valid, []) .leaf))) 4783 4783 (.valid, []) (.node (.node (.node .leaf 4784 4784 (.valid, []) .leaf) 4785 4785 (.disallowed, []) (.node .leaf 4786 4789 (.valid, []) .leaf)) 4790 4791 (.disallowed, []) (.node (.node .leaf 4792 4798 (.valid, []) .leaf) 4799 4799 (.disallowed, []) (.node .leaf 4800 4800 (.valid, []) .leaf)))) 4801 4801 (.disallowed, []) (.node (.node (.node (.node (.node .leaf 4802 4805 (.valid, []) .leaf) 4806 4807 (.disallowed, []) .leaf) 4808 4814 (.valid, []) (.node .leaf 4815 4815 (.valid, []) .leaf)) 4816 4822 (.valid, []) (.node (.node .leaf 4823 4823 (.disallowed, []) .leaf) 4824 4846 (.valid, []) (.node .leaf 4847 4847 (.valid, []) .leaf))) 4848 4878 (.valid, []) (.node (.node (.node .leaf 4879 4879 (.valid, []) .leaf) 4880 4880 (.valid, []) (.node .leaf 4881 4881 (.disallowed, []) .leaf)) 4882 4885 (.valid, []) (.node (.node .leaf 4886 4887 (.disallowed, []) .leaf) 4888 4894 (.valid, []) (.node .leaf 4895 4895 (.valid, []) .leaf))))) 4896 4934 (.valid, []) (.node (.node (.node (.node (.node (.node .leaf 4935 4935 (.valid, []) .leaf) 4936 4954 (.valid, []) .leaf) 4955 4956 (.disallowed, []) (.node .leaf 4957 4958 (.valid, []) .leaf)) 4959 4959 (.valid, []) (.node (.node .leaf 4960 4960 (.valid, []) .leaf) 4961 4988 (.valid, []) (.node .leaf 4989 4991 (.disallowed, []) .leaf))) 4992 5007 (.valid, []) (.node (.node (.node .leaf 5008 5017 (.valid, []) .leaf) 5018 5023 (.disallowed, []) (.node .leaf 5024 5108 (.valid, []) .leaf)) 5109 5109 (.valid, []) (.node (.node .leaf 5110 5111 (.disallowed, []) .leaf) 5112 5112 (.mapped, [5104]) (.node .leaf 5113 5113 (.mapped, [5105]) .leaf)))) 5114 5114 (.mapped, [5106]) (.node (.node (.node (.node (.node .leaf 5115 5115 (.mapped, [5107]) .leaf) 5116 5116 (.mapped, [5108]) .leaf) 5117 5117 (.mapped, [5109]) (.node .leaf 5118 5119 (.disallowed, []) .leaf)) 5120 5120 (.valid, []) (.node (.node .leaf 5121 5740 (.valid, []) .leaf) 5741 5742 (.valid, []) (.node .leaf 5743 5750 (.valid, []) .leaf))) 5751 5759 (.valid, []) (.node (.node (.node .leaf 5760 5760 (.disallowed, []) .leaf) 5761 5786 (.valid, []) (.node .leaf 5787 5788 (.valid, []) .leaf)) 5789 5791 (.disallowed, []) (.node (.node .leaf 5792 5866 (.valid, []) .leaf) 5867 5872 (.valid, []) (.node .leaf 5873 5880 (.valid, []) .leaf)))))) 5881 5887 (.disallowed, []) (.node (.node (.node (.node (.node (.node (.node .leaf 5888 5900 (.valid, []) .leaf) 5901 5901 (.disallowed, []) .leaf) 5902 5908 (.valid, []) (.node .leaf 5909 5919 (.disallowed, []) .leaf)) 5920 5940 (.valid, []) (.node (.node .leaf 5941 5942 (.valid, []) .leaf) 5943 5951 (.disallowed, []) (.node .leaf 5952 5971 (.valid, []) .leaf))) 5972 5983 (.disallowed, []) (.node (.node (.node .leaf 5984 5996 (.valid, []) .leaf) 5997 5997 (.disallowed, []) (.node .leaf 5998 6000 (.valid, []) .leaf)) 6001 6001 (.disallowed, []) (.node (.node .leaf 6002 6003 (.valid, []) .leaf) 6004 6015 (.disallowed, []) (.node .leaf 6016 6067 (.valid, []) .leaf)))) 6068 6069 (.disallowed, []) (.node (.node (.node (.node (.node .leaf 6070 6099 (.valid, []) .leaf) 6100 6102 (.valid, []) .leaf) 6103 6103 (.valid, []) (.node .leaf 6104 6107 (.valid, []) .leaf)) 6108 6108 (.valid, []) (.node (.node .leaf 6109 6109 (.valid, []) .leaf) 6110 6111 (.disallowed, []) (.node .leaf 6112 6121 (.valid, []) .leaf))) 6122 6127 (.disallowed, []) (.node (.node (.node .leaf 6128 6137 (.valid, []) .leaf) 6138 6143 (.disallowed, []) (.node .leaf 6144 6149 (.valid, []) .leaf)) 6150 6150 (.disallowed, []) (.node (.node .leaf 6151 6154 (.valid, []) .leaf) 6155 6157 (.ignored, []) (.node .leaf 6158 6158 (.disallowed, []) .leaf))))) 6159 6159 (.disallowed, []) (.node (.node (.node (.node (.node (.node .leaf 6160 6169 (.valid, []) .leaf) 6170 6175 (.disallowed, []) .leaf) 6176 6263 (.valid, []) (.node .leaf 6264 6264 (.valid, []) .leaf)) 6265 6271 (.disallowed, []) (.node (.node .leaf 6272 6313 (.valid, []) .leaf) 6314 6314 (.valid, []) (.node .leaf 6315 6319 (.disallowed, []) .leaf))) 6320 6389 (.valid, []) (.node (.node (.node .leaf 6390 6399 (.disallowed, []) .leaf) 6400 6428 (.valid, []) (.node .leaf 6429 6430 (.valid, []) .leaf)) 6431 6431 (.disallowed, []) (.node (.node .leaf 6432 6443 (.valid, []) .leaf) 6444 6447 (.disallowed, []) (.node .leaf 6448 6459 (.valid, []) .leaf)))) 6460 6463 (.disallowed, []) (.node (.node (.node (.node (.node .leaf 6464 6464 (.valid, []) .leaf) 6465 6467 (.disallowed, []) .leaf) 6468 6469 (.valid, []) (.node .leaf 6470 6509 (.valid, []) .leaf)) 6510 6511 (.disallowed, []) (.node (.node .leaf 6512 6516 (.valid, []) .leaf) 6517 6527 (.disallowed, []) (.node .leaf 6528 6569 (.valid, []) .leaf))) 6570 6571 (.valid, []) (.node (.node (.node .leaf 6572 6575 (.disallowed, []) .leaf) 6576 6601 (.valid, []) (.node .leaf 6602 6607 (.disallowed, []) .leaf)) 6608 6617 (.valid, []) (.node (.node .leaf 6618 6618 (.valid, []) .leaf) 6619 6621 (.disallowed, []) (.node .leaf 6622 6623 (.valid, []) .leaf))))))))

def idnaTable6 : RTree (Status × List Nat) := (.node (.node (.node (.node (.node (.node (.node (.node (.node .leaf 6656 6683 (.valid, []) .leaf) 6684 6685 (.disallowed, []) .leaf) 6686 6687 (.valid, []) (.node .leaf 6688 6750 (.valid, []) .leaf)) 6751 6751 (.disallowed, []) (.node (.node .leaf 6752 6780 (.valid, []) .leaf) 6781 6782 (.disallowed, []) (.node .leaf 6783 6793 (.valid, []) .leaf))) 6794 6799 (.disallowed, []) (.node (.node (.node .leaf 6800 6809 (.valid, []) .leaf) 6810 6815 (.disallowed, []) (.node .leaf 6816 6822 (.valid, []) .leaf)) 6823 6823 (.valid, []) (.node (.node .leaf 6824 6829 (.valid, []) .leaf) 6830 6831 (.disallowed, []) (.node .leaf 6832 6845 (.valid, []) .leaf)))) 6846 6846 (.valid, []) (.node (.node (.node (.node (.node .leaf 6847 6848 (.valid, []) .leaf) 6849 6911 (.disallowed, []) .leaf) 6912 6987 (.valid, []) (.node .leaf 6988 6991 (.disallowed, []) .leaf)) 6992 7001 (.valid, []) (.node (.node .leaf 7002 7018 (.valid, []) .leaf) 7019 7027 (.valid, []) (.node .leaf 7028 7036 (.valid, []) .leaf))) 7037 7039 (.disallowed, []) (.node (.node (.node .leaf 7040 7082 (.valid, []) .leaf) 7083 7085 (.valid, []) (.node .leaf 7086 7097 (.valid, []) .leaf)) 7098 7103 (.valid, []) (.node (.node .leaf 7104 7155 (.valid, []) .leaf) 7156 7163 (.disallowed, []) (.node .leaf 7164 7167 (.valid, []) .leaf))))) 7168 7223 (.valid, []) (.node (.node (.node (.node (.node (.node .leaf 7224 7226 (.disallowed, []) .leaf) 7227 7231 (.valid, []) .leaf) 7232 7241 (.valid, []) (.node .leaf 7242 7244 (.disallowed, []) .leaf)) 7245 7293 (.valid, []) (.node (.node .leaf 7294 7295 (.valid, []) .leaf) 7296 7296 (.mapped, [1074]) (.node .leaf 7297 7297 (.mapped, [1076]) .leaf))) 7298 7298 (.mapped, [1086]) (.node (.node (.node .leaf 7299 7299 (.mapped, [1089]) .leaf) 7300 7301 (.mapped, [1090]) (.node .leaf 7302 7302 (.mapped, [1098]) .leaf)) 7303 7303 (.mapped, [1123]) (.node (.node .leaf 7304 7304 (.mapped, [42571]) .leaf) 7305 7311 (.disallowed, []) (.node .leaf 7312 7312 (.mapped, [4304]) .leaf)))) 7313 7313 (.mapped, [4305]) (.node (.node (.node (.node (.node .leaf 7314 7314 (.mapped, [4306]) .leaf) 7315 7315 (.mapped, [4307]) .leaf) 7316 7316 (.mapped, [4308]) (.node .leaf 7317 7317 (.mapped, [4309]) .leaf)) 7318 7318 (.mapped, [4310]) (.node (.node .leaf 7319 7319 (.mapped, [4311]) .leaf) 7320 7320 (.mapped, [4312]) (.node .leaf 7321 7321 (.mapped, [4313]) .leaf))) 7322 7322 (.mapped, [4314]) (.node (.node (.node .leaf 7323 7323 (.mapped, [4315]) .leaf) 7324 7324 (.mapped, [4316]) (.node .leaf 7325 7325 (.mapped, [4317]) .leaf)) 7326 7326 (.mapped, [4318]) (.node (.node .leaf 7327 7327 (.mapped, [4319]) .leaf) 7328 7328 (.mapped, [4320]) (.node .leaf 7329 7329 (.mapped, [4321]) .leaf)))))) 7330 7330 (.mapped, [4322]) (.node (.node (.node (.node (.node (.node (.node .leaf 7331 7331 (.mapped, [4323]) .leaf) 7332 7332 (.mapped, [4324]) .leaf) 7333 7333 (.mapped, [4325]) (.node .leaf 7334 7334 (.mapped, [4326]) .leaf)) 7335 7335 (.mapped, [4327]) (.node (.node .leaf 7336 7336 (.mapped, [4328]) .leaf) 7337 7337 (.mapped, [4329]) (.node .leaf 7338 7338 (.mapped, [4330]) .leaf))) 7339 7339 (.mapped, [4331]) (.node (.node (.node .leaf 7340 7340 (.mapped, [4332]) .leaf) 7341 7341 (.mapped, [4333]) (.node .leaf 7342 7342 (.mapped, [4334]) .leaf)) 7343 7343 (.mapped, [4335]) (.node (.node .leaf 7344 7344 (.mapped, [4336]) .leaf) 7345 7345 (.mapped, [4337]) (.node .leaf 7346 7346 (.mapped, [4338]) .leaf)))) 7347 7347 (.mapped, [4339]) (.node (.node (.node (.node (.node .leaf 7348 7348 (.mapped, [4340]) .leaf) 7349 7349 (.mapped, [4341]) .leaf) 7350 7350 (.mapped, [4342]) (.node .leaf 7351 7351 (.mapped, [4343]) .leaf)) 7352 7352 (.mapped, [4344]) (.node (.node .leaf 7353 7353 (.mapped, [4345]) .leaf) 7354 7354 (.mapped, [4346]) (.node .leaf 7355 7356 (.disallowed, []) .leaf))) 7357 7357 (.mapped, [4349]) (.node (.node (.node .leaf 7358 7358 (.mapped, [4350]) .leaf) 7359 7359 (.mapped, [4351]) (.node .leaf 7360 7367 (.valid, []) .leaf)) 7368 7375 (.disallowed, []) (.node (.node .leaf 7376 7378 (.valid, []) .leaf) 7379 7379 (.valid, []) (.node .leaf 7380 7410 (.valid, []) .leaf))))) 7411 7414 (.valid, []) (.node (.node (.node (.node (.node (.node .leaf 7415 7415 (.valid, []) .leaf) 7416 7417 (.valid, []) .leaf) 7418 7418 (.valid, []) (.node .leaf 7419 7423 (.disallowed, []) .leaf)) 7424 7467 (.valid, []) (.node (.node .leaf 7468 7468 (.mapped, [97]) .leaf) 7469 7469 (.mapped, [230]) (.node .leaf 7470 7470 (.mapped, [98]) .leaf))) 7471 7471 (.valid, []) (.node (.node (.node .leaf 7472 7472 (.mapped, [100]) .leaf) 7473 7473 (.mapped, [101]) (.node .leaf 7474 7474 (.mapped, [477]) .leaf)) 7475 7475 (.mapped, [103]) (.node (.node .leaf 7476 7476 (.mapped, [104]) .leaf) 7477 7477 (.mapped, [105]) (.node .leaf 7478 7478 (.mapped, [106]) .leaf)))) 7479 7479 (.mapped, [107]) (.node (.node (.node (.node (.node .leaf 7480 7480 (.mapped, [108]) .leaf) 7481 7481 (.mapped, [109]) .leaf) 7482 7482 (.mapped, [110]) (.node .leaf 7483 7483 (.valid, []) .leaf)) 7484 7484 (.mapped, [111]) (.node (.node .leaf 7485 7485 (.mapped, [547]) .leaf) 7486 7486 (.mapped, [112]) (.node .leaf 7487 7487 (.mapped, [114]) .leaf))) 7488 7488 (.mapped, [116]) (.node (.node (.node .leaf 7489 7489 (.mapped, [117]) .leaf) 7490 7490 (.mapped, [119]) (.node .leaf 7491 7491 (.mapped, [97]) .leaf)) 7492 7492 (.mapped, [592]) (.node (.node .leaf 7493 7493 (.mapped, [593]) .leaf) 7494 7494 (.mapped, [7426]) (.node .leaf 7495 7495 (.mapped, [98]) .leaf))))))) 7496 7496 (.mapped, [100]) (.node (.node (.node (.node (.node (.node (.node (.node .leaf 7497 7497 (.mapped, [101]) .leaf) 7498 7498 (.mapped, [601]) .leaf) 7499 7499 (.mapped, [603]) (.node .leaf 7500 7500 (.mapped, [604]) .leaf)) 7501 7501 (.mapped, [103]) (.node (.node .leaf 7502 7502 (.valid, []) .leaf) 7503 7503 (.mapped, [107]) (.node .leaf 7504 7504 (.mapped, [109]) .leaf))) 7505 7505 (.mapped, [331]) (.node (.node (.node .leaf 7506 7506 (.mapped, [111]) .leaf) 7507 7507 (.mapped, [596]) (.node .leaf 7508 7508 (.mapped, [7446]) .leaf)) 7509 7509 (.mapped, [7447]) (.node (.node .leaf 7510 7510 (.mapped, [112]) .leaf) 7511 7511 (.mapped, [116]) (.node .leaf 7512 7512 (.mapped, [117]) .leaf)))) 7513 7513 (.mapped, [7453]) (.node (.node (.node (.node (.node .leaf 7514 7514 (.mapped, [623]) .leaf) 7515 7515 (.mapped, [118]) .leaf) 7516 7516 (.mapped, [7461]) (.node .leaf 7517 7517 (.mapped, [946]) .leaf)) 7518 7518 (.mapped, [947]) (.node (.node .leaf 7519 7519 (.mapped, [948]) .leaf) 7520 7520 (.mapped, [966]) (.node .leaf 7521 7521 (.mapped, [967]) .leaf))) 7522 7522 (.mapped, [105]) (.node (.node (.node .leaf 7523 7523 (.mapped, [114]) .leaf) 7524 7524 (.mapped, [117]) (.node .leaf 7525 7525 (.mapped, [118]) .leaf)) 7526 7526 (.mapped, [946]) (.node (.node .leaf 7527 7527 (.mapped, [947]) .leaf) 7528 7528 (.mapped, [961]) (.node .leaf 7529 7529 (.mapped, [966]) .leaf))))) 7530 7530 (.mapped, [967]) (.node (.node (.node (.node (.node (.node .leaf 7531 7531 (.valid, []) .leaf) 7532 7543 (.valid, []) .leaf) 7544 7544 (.mapped, [1085]) (.node .leaf 7545 7578 (.valid, []) .leaf)) 7579 7579 (.mapped, [594]) (.node (.node .leaf 7580 7580 (.mapped, [99]) .leaf) 7581 7581 (.mapped, [597]) (.node .leaf 7582 7582 (.mapped, [240]) .leaf))) 7583 7583 (.mapped, [604]) (.node (.node (.node .leaf 7584 7584 (.mapped, [102]) .leaf) 7585 7585 (.mapped, [607]) (.node .leaf 7586 7586 (.mapped, [609]) .leaf)) 7587 7587 (.mapped, [613]) (.node (.node .leaf 7588 7588 (.mapped, [616]) .leaf) 7589 7589 (.mapped, [617]) (.node .leaf 7590 7590 (.mapped, [618]) .leaf)))) 7591 7591 (.mapped, [7547]) (.node (.node (.node (.node (.node .leaf 7592 7592 (.mapped, [669]) .leaf) 7593 7593 (.mapped, [621]) .leaf) 7594 7594 (.mapped, [7557]) (.node .leaf 7595 7595 (.mapped, [671]) .leaf)) 7596 7596 (.mapped, [625]) (.node (.node .leaf 7597 7597 (.mapped, [624]) .leaf) 7598 7598 (.mapped, [626]) (.node .leaf 7599 7599 (.mapped, [627]) .leaf))) 7600 7600 (.mapped, [628]) (.node (.node (.node .leaf 7601 7601 (.mapped, [629]) .leaf) 7602 7602 (.mapped, [632]) (.node .leaf 7603 7603 (.mapped, [642]) .leaf)) 7604 7604 (.mapped, [643]) (.node (.node .leaf 7605 7605 (.mapped, [427]) .leaf) 7606 7606 (.mapped, [649]) (.node .leaf 7607 7607 (.mapped, [650]) .leaf)))))) 7608 7608 (.mapped, [7452]) (.node (.node (.node (.node (.node (.node (.node .leaf 7609 7609 (.mapped, [651]) .leaf) 7610 7610 (.mapped, [652]) .leaf) 7611 7611 (.mapped, [122]) (.node .leaf 7612 7612 (.mapped, [656]) .leaf)) 7613 7613 (.mapped, [657]) (.node (.node .leaf 7614 7614 (.mapped, [658]) .leaf) 7615 7615 (.mapped, [952]) (.node .leaf 7616 7619 (.valid, []) .leaf))) 7620 7626 (.valid, []) (.node (.node (.node .leaf 7627 7654 (.valid, []) .leaf) 7655 7669 (.valid, []) (.node .leaf 7670 7673 (.valid, []) .leaf)) 7674 7674 (.disallowed, []) (.node (.node .leaf 7675 7675 (.valid, []) .leaf) 7676 7676 (.valid, []) (.node .leaf 7677 7677 (.valid, []) .leaf)))) 7678 7679 (.valid, []) (.node (.node (.node (.node (.node .leaf 7680 7680 (.mapped, [7681]) .leaf) 7681 7681 (.valid, []) .leaf) 7682 7682 (.mapped, [7683]) (.node .leaf 7683 7683 (.valid, []) .leaf)) 7684 7684 (.mapped, [7685]) (.node (.node .leaf 7685 7685 (.valid, []) .leaf) 7686 7686 (.mapped, [7687]) (.node .leaf 7687 7687 (.valid, []) .leaf))) 7688 7688 (.mapped, [7689]) (.node (.node (.node .leaf 7689 7689 (.valid, []) .leaf) 7690 7690 (.mapped, [7691]) (.node .leaf 7691 7691 (.valid, []) .leaf)) 7692 7692 (.mapped, [7693]) (.node (.node .leaf 7693 7693 (.valid, []) .leaf) 7694 7694 (.mapped, [7695]) (.node .leaf 7695 7695 (.valid, []) .leaf))))) 7696 7696 (.mapped, [7697]) (.node (.node (.node (.node (.node (.node .leaf 7697 7697 (.valid, []) .leaf) 7698 7698 (.mapped, [7699]) .leaf) 7699 7699 (.valid, []) (.node .leaf 7700 7700 (.mapped, [7701]) .leaf)) 7701 7701 (.valid, []) (.node (.node .leaf 7702 7702 (.mapped, [7703]) .leaf) 7703 7703 (.valid, []) (.node .leaf 7704 7704 (.mapped, [7705]) .leaf))) 7705 7705 (.valid, []) (.node (.node (.node .leaf 7706 7706 (.mapped, [7707]) .leaf) 7707 7707 (.valid, []) (.node .leaf 7708 7708 (.mapped, [7709]) .leaf)) 7709 7709 (.valid, []) (.node (.node .leaf 7710 7710 (.mapped, [7711]) .leaf) 7711 7711 (.valid, []) (.node .leaf 7712 7712 (.mapped, [7713]) .leaf)))) 7713 7713 (.valid, []) (.node (.node (.node (.node (.node .leaf 7714 7714 (.mapped, [7715]) .leaf) 7715 7715 (.valid, []) .leaf) 7716 7716 (.mapped, [7717]) (.node .leaf 7717 7717 (.valid, []) .leaf)) 7718 7718 (.mapped, [7719]) (.node (.node .leaf 7719 7719 (.valid, []) .leaf) 7720 7720 (.mapped, [7721]) (.node .leaf 7721 7721 (.valid, []) .leaf))) 7722 7722 (.mapped, [7723]) (.node (.node (.node .leaf 7723 7723 (.valid, []) .leaf) 7724 7724 (.mapped, [7725]) (.node .leaf 7725 7725 (.valid, []) .leaf)) 7726 7726 (.mapped, [7727]) (.node (.node .leaf 7727 7727 (.valid, []) .leaf) 7728 7728 (.mapped, [7729]) (.node .leaf 7729 7729 (.valid, []) .leaf))))))))

def idnaTable7 : RTree (Status × List Nat) := (.node (.node (.node (.node (.node (.node (.node (.node (.node .leaf 7731 7731 (.valid, []) .leaf) 7732 7732 (.mapped, [7733]) .leaf) 7733 7733 (.valid, []) (.node .leaf 7734 7734 (.mapped, [7735]) .leaf)) 7735 7735 (.valid, []) (.node (.node .leaf 7736 7736 (.mapped, [7737]) .leaf) 7737 7737 (.valid, []) (.node .leaf 7738 7738 (.mapped, [7739]) .leaf))) 7739 7739 (.valid, []) (.node (.node (.node .leaf 7740 7740 (.mapped, [7741]) .leaf) 7741 7741 (.valid, []) (.node .leaf 7742 7742 (.mapped, [7743]) .leaf)) 7743 7743 (.valid, []) (.node (.node .leaf 7744 7744 (.mapped, [7745]) .leaf) 7745 7745 (.valid, []) (.node .leaf 7746 7746 (.mapped, [7747]) .leaf)))) 7747 7747 (.valid, []) (.node (.node (.node (.node (.node .leaf 7748 7748 (.mapped, [7749]) .leaf) 7749 7749 (.valid, []) .leaf) 7750 7750 (.mapped, [7751]) (.node .leaf 7751 7751 (.valid, []) .leaf)) 7752 7752 (.mapped, [7753]) (.node (.node .leaf 7753 7753 (.valid, []) .leaf) 7754 7754 (.mapped, [7755]) (.node .leaf 7755 7755 (.valid, []) .leaf))) 7756 7756 (.mapped, [7757]) (.node (.node (.node .leaf 7757 7757 (.valid, []) .leaf) 7758 7758 (.mapped, [7759]) (.node .leaf 7759 7759 (.valid, []) .leaf)) 7760 7760 (.mapped, [7761]) (.node (.node .leaf 7761 7761 (.valid, []) .leaf) 7762 7762 (.mapped, [7763]) (.node .leaf 7763 7763 (.valid, []) .leaf))))) 7764 7764 (.mapped, [7765]) (.node (.node (.node (.node (.node (.node .leaf 7765 7765 (.valid, []) .leaf) 7766 7766 (.mapped, [7767]) .leaf) 7767 7767 (.valid, []) (.node .leaf 7768 7768 (.mapped, [7769]) .leaf)) 7769 7769 (.valid, []) (.node (.node .leaf 7770 7770 (.mapped, [7771]) .leaf) 7771 7771 (.valid, []) (.node .leaf 7772 7772 (.mapped, [7773]) .leaf))) 7773 7773 (.valid, []) (.node (.node (.node .leaf 7774 7774 (.mapped, [7775]) .leaf) 7775 7775 (.valid, []) (.node .leaf 7776 7776 (.mapped, [7777]) .leaf)) 7777 7777 (.valid, []) (.node (.node .leaf 7778 7778 (.mapped, [7779]) .leaf) 7779 7779 (.valid, []) (.node .leaf 7780 7780 (.mapped, [7781]) .leaf)))) 7781 7781 (.valid, []) (.node (.node (.node (.node (.node .leaf 7782 7782 (.mapped, [7783]) .leaf) 7783 7783 (.valid, []) .leaf) 7784 7784 (.mapped, [7785]) (.node .leaf 7785 7785 (.valid, []) .leaf)) 7786 7786 (.mapped, [7787]) (.node (.node .leaf 7787 7787 (.valid, []) .leaf) 7788 7788 (.mapped, [7789]) (.node .leaf 7789 7789 (.valid, []) .leaf))) 7790 7790 (.mapped, [7791]) (.node (.node (.node .leaf 7791 7791 (.valid, []) .leaf) 7792 7792 (.mapped, [7793]) (.node .leaf 7793 7793 (.valid, []) .leaf)) 7794 7794 (.mapped, [7795]) (.node (.node .leaf 7795 7795 (.valid, []) .leaf) 7796 7796 (.mapped, [7797]) (.node .leaf 7797 7797 (.valid, []) .leaf)))))) 7798 7798 (.mapped, [7799]) (.node (.node (.node (.node (.node (.node (.node .leaf 7799 7799 (.valid, []) .leaf) 7800 7800 (.mapped, [7801]) .leaf) 7801 7801 (.valid, []) (.node .leaf 7802 7802 (.mapped, [7803]) .leaf)) 7803 7803 (.valid, []) (.node (.node .leaf 7804 7804 (.mapped, [7805]) .leaf) 7805 7805 (.valid, []) (.node .leaf 7806 7806 (.mapped, [7807]) .leaf))) 7807 7807 (.valid, []) (.node (.node (.node .leaf 7808 7808 (.mapped, [7809]) .leaf) 7809 7809 (.valid, []) (.node .leaf 7810 7810 (.mapped, [7811]) .leaf)) 7811 7811 (.valid, []) (.node (.node .leaf 7812 7812 (.mapped, [7813]) .leaf) 7813 7813 (.valid, []) (.node .leaf 7814 7814 (.mapped, [7815]) .leaf)))) 7815 7815 (.valid, []) (.node (.node (.node (.node (.node .leaf 7816 7816 (.mapped, [7817]) .leaf) 7817 7817 (.valid, []) .leaf) 7818 7818 (.mapped, [7819]) (.node .leaf 7819 7819 (.valid, []) .leaf)) 7820 7820 (.mapped, [7821]) (.node (.node .leaf 7821 7821 (.valid, []) .leaf) 7822 7822 (.mapped, [7823]) (.node .leaf 7823 7823 (.valid, []) .leaf))) 7824 7824 (.mapped, [7825]) (.node (.node (.node .leaf 7825 7825 (.valid, []) .leaf) 7826 7826 (.mapped, [7827]) (.node .leaf 7827 7827 (.valid, []) .leaf)) 7828 7828 (.mapped, [7829]) (.node (.node .leaf 7829 7833 (.valid, []) .leaf) 7834 7834 (.mapped, [97, 702]) (.node .leaf 7835 7835 (.mapped, [7777]) .leaf))))) 7836 7837 (.valid, []) (.node (.node (.node (.node (.node (.node .leaf 7838 7838 (.mapped, [115, 115]) .leaf) 7839 7839 (.valid, []) .leaf) 7840 7840 (.mapped, [7841]) (.node .leaf 7841 7841 (.valid, []) .leaf)) 7842 7842 (.mapped, [7843]) (.node (.node .leaf 7843 7843 (.valid, []) .leaf) 7844 7844 (.mapped, [7845]) (.node .leaf 7845 7845 (.valid, []) .leaf))) 7846 7846 (.mapped, [7847]) (.node (.node (.node .leaf 7847 7847 (.valid, []) .leaf) 7848 7848 (.mapped, [7849]) (.node .leaf 7849 7849 (.valid, []) .leaf)) 7850 7850 (.mapped, [7851]) (.node (.node .leaf 7851 7851 (.valid, []) .leaf) 7852 7852 (.mapped, [7853]) (.node .leaf 7853 7853 (.valid, []) .leaf)))) 7854 7854 (.mapped, [7855]) (.node (.node (.node (.node (.node .leaf 7855 7855 (.valid, []) .leaf) 7856 7856 (.mapped, [7857]) .leaf) 7857 7857 (.valid, []) (.node .leaf 7858 7858 (.mapped, [7859]) .leaf)) 7859 7859 (.valid, []) (.node (.node .leaf 7860 7860 (.mapped, [7861]) .leaf) 7861 7861 (.valid, []) (.node .leaf 7862 7862 (.mapped, [7863]) .leaf))) 7863 7863 (.valid, []) (.node (.node (.node .leaf 7864 7864 (.mapped, [7865]) .leaf) 7865 7865 (.valid, []) (.node .leaf 7866 7866 (.mapped, [7867]) .leaf)) 7867 7867 (.valid, []) (.node (.node .leaf 7868 7868 (.mapped, [7869]) .leaf) 7869 7869 (.valid, []) (.node .leaf 7870 7870 (.mapped, [7871]) .leaf))))))) 7871 7871 (.valid, []) (.node (.node (.node (.node (.node (.node (.node (.node .leaf 7872 7872 (.mapped, [7873]) .leaf) 7873 7873 (.valid, []) .leaf) 7874 7874 (.mapped, [7875]) (.node .leaf 7875 7875 (.valid, []) .leaf)) 7876 7876 (.mapped, [7877]) (.node (.node .leaf 7877 7877 (.valid, []) .leaf) 7878 7878 (.mapped, [7879]) (.node .leaf 7879 7879 (.valid, []) .leaf))) 7880 7880 (.mapped, [7881]) (.node (.node (.node .leaf 7881 7881 (.valid, []) .leaf) 7882 7882 (.mapped, [7883]) (.node .leaf 7883 7883 (.valid, []) .leaf)) 7884 7884 (.mapped, [7885]) (.node (.node .leaf 7885 7885 (.valid, []) .leaf) 7886 7886 (.mapped, [7887]) (.node .leaf 7887 7887 (.valid, []) .leaf)))) 7888 7888 (.mapped, [7889]) (.node (.node (.node (.node (.node .leaf 7889 7889 (.valid, []) .leaf) 7890 7890 (.mapped, [7891]) .leaf) 7891 7891 (.valid, []) (.node .leaf 7892 7892 (.mapped, [7893]) .leaf)) 7893 7893 (.valid, []) (.node (.node .leaf 7894 7894 (.mapped, [7895]) .leaf) 7895 7895 (.valid, []) (.node .leaf 7896 7896 (.mapped, [7897]) .leaf))) 7897 7897 (.valid, []) (.node (.node (.node .leaf 7898 7898 (.mapped, [7899]) .leaf) 7899 7899 (.valid, []) (.node .leaf 7900 7900 (.mapped, [7901]) .leaf)) 7901 7901 (.valid, []) (.node (.node .leaf 7902 7902 (.mapped, [7903]) .leaf) 7903 7903 (.valid, []) (.node .leaf 7904 7904 (.mapped, [7905]) .leaf))))) 7905 7905 (.valid, []) (.node (.node (.node (.node (.node (.node .leaf 7906 7906 (.mapped, [7907]) .leaf) 7907 7907 (.valid, []) .leaf) 7908 7908 (.mapped, [7909]) (.node .leaf 7909 7909 (.valid, []) .leaf)) 7910 7910 (.mapped, [7911]) (.node (.node .leaf 7911 7911 (.valid, []) .leaf) 7912 7912 (.mapped, [7913]) (.node .leaf 7913 7913 (.valid, []) .leaf))) 7914 7914 (.mapped, [7915]) (.node (.node (.node .leaf 7915 7915 (.valid, []) .leaf) 7916 7916 (.mapped, [7917]) (.node .leaf 7917 7917 (.valid, []) .leaf)) 7918 7918 (.mapped, [7919]) (.node (.node .leaf 7919 7919 (.valid, []) .leaf) 7920 7920 (.mapped, [7921]) (.node .leaf 7921 7921 (.valid, []) .leaf)))) 7922 7922 (.mapped, [7923]) (.node (.node (.node (.node (.node .leaf 7923 7923 (.valid, []) .leaf) 7924 7924 (.mapped, [7925]) .leaf) 7925 7925 (.valid, []) (.node .leaf 7926 7926 (.mapped, [7927]) .leaf)) 7927 7927 (.valid, []) (.node (.node .leaf 7928 7928 (.mapped, [7929]) .leaf) 7929 7929 (.valid, []) (.node .leaf 7930 7930 (.mapped, [7931]) .leaf))) 7931 7931 (.valid, []) (.node (.node (.node .leaf 7932 7932 (.mapped, [7933]) .leaf) 7933 7933 (.valid, []) (.node .leaf 7934 7934 (.mapped, [7935]) .leaf)) 7935 7935 (.valid, []) (.node (.node .leaf 7936 7943 (.valid, []) .leaf) 7944 7944 (.mapped, [7936]) (.node .leaf 7945 7945 (.mapped, [7937]) .leaf)))))) 7946 7946 (.mapped, [7938]) (.node (.node (.node (.node (.node (.node (.node .leaf 7947 7947 (.mapped, [7939]) .leaf) 7948 7948 (.mapped, [7940]) .leaf) 7949 7949 (.mapped, [7941]) (.node .leaf 7950 7950 (.mapped, [7942]) .leaf)) 7951 7951 (.mapped, [7943]) (.node (.node .leaf 7952 7957 (.valid, []) .leaf) 7958 7959 (.disallowed, []) (.node .leaf 7960 7960 (.mapped, [7952]) .leaf))) 7961 7961 (.mapped, [7953]) (.node (.node (.node .leaf 7962 7962 (.mapped, [7954]) .leaf) 7963 7963 (.mapped, [7955]) (.node .leaf 7964 7964 (.mapped, [7956]) .leaf)) 7965 7965 (.mapped, [7957]) (.node (.node .leaf 7966 7967 (.disallowed, []) .leaf) 7968 7975 (.valid, []) (.node .leaf 7976 7976 (.mapped, [7968]) .leaf)))) 7977 7977 (.mapped, [7969]) (.node (.node (.node (.node (.node .leaf 7978 7978 (.mapped, [7970]) .leaf) 7979 7979 (.mapped, [7971]) .leaf) 7980 7980 (.mapped, [7972]) (.node .leaf 7981 7981 (.mapped, [7973]) .leaf)) 7982 7982 (.mapped, [7974]) (.node (.node .leaf 7983 7983 (.mapped, [7975]) .leaf) 7984 7991 (.valid, []) (.node .leaf 7992 7992 (.mapped, [7984]) .leaf))) 7993 7993 (.mapped, [7985]) (.node (.node (.node .leaf 7994 7994 (.mapped, [7986]) .leaf) 7995 7995 (.mapped, [7987]) (.node .leaf 7996 7996 (.mapped, [7988]) .leaf)) 7997 7997 (.mapped, [7989]) (.node (.node .leaf 7998 7998 (.mapped, [7990]) .leaf) 7999 7999 (.mapped, [7991]) (.node .leaf 8000 8005 (.valid, []) .leaf))))) 8006 8007 (.disallowed, []) (.node (.node (.node (.node (.node (.node .leaf 8008 8008 (.mapped, [8000]) .leaf) 8009 8009 (.mapped, [8001]) .leaf) 8010 8010 (.mapped, [8002]) (.node .leaf 8011 8011 (.mapped, [8003]) .leaf)) 8012 8012 (.mapped, [8004]) (.node (.node .leaf 8013 8013 (.mapped, [8005]) .leaf) 8014 8015 (.disallowed, []) (.node .leaf 8016 8023 (.valid, []) .leaf))) 8024 8024 (.disallowed, []) (.node (.node (.node .leaf 8025 8025 (.mapped, [8017]) .leaf) 8026 8026 (.disallowed, []) (.node .leaf 8027 8027 (.mapped, [8019]) .leaf)) 8028 8028 (.disallowed, []) (.node (.node .leaf 8029 8029 (.mapped, [8021]) .leaf) 8030 8030 (.disallowed, []) (.node .leaf 8031 8031 (.mapped, [8023]) .leaf)))) 8032 8039 (.valid, []) (.node (.node (.node (.node (.node .leaf 8040 8040 (.mapped, [8032]) .leaf) 8041 8041 (.mapped, [8033]) .leaf) 8042 8042 (.mapped, [8034]) (.node .leaf 8043 8043 (.mapped, [8035]) .leaf)) 8044 8044 (.mapped, [8036]) (.node (.node .leaf 8045 8045 (.mapped, [8037]) .leaf) 8046 8046 (.mapped, [8038]) (.node .leaf 8047 8047 (.mapped, [8039]) .leaf))) 8048 8048 (.valid, []) (.node (.node (.node .leaf 8049 8049 (.mapped, [940]) .leaf) 8050 8050 (.valid, []) (.node .leaf 8051 8051 (.mapped, [941]) .leaf)) 8052 8052 (.valid, []) (.node (.node .leaf 8053 8053 (.mapped, [942]) .leaf) 8054 8054 (.valid, []) (.node .leaf 8055 8055 (.mapped, [943]) .leaf))))))))

def idnaTable8 : RTree (Status × List Nat) := (.node (.node (.node (.node (.node (.node (.node (.node (.node .leaf 8057 8057 (.mapped, [972]) .leaf) 8058 8058 (.valid, []) .leaf) 8059 8059 (.mapped, [973]) (.node .leaf 8060 8060 (.valid, []) .leaf)) 8061 8061 (.mapped, [974]) (.node (.node .leaf 8062 8063 (.disallowed, []) .leaf) 8064 8064 (.mapped, [7936, 953]) (.node .leaf 8065 8065 (.mapped, [7937, 953]) .leaf))) 8066 8066 (.mapped, [7938, 953]) (.node (.node (.node (.node .leaf 8067 8067 (.mapped, [7939, 953]) .leaf) 8068 8068 (.mapped, [7940, 953]) .leaf) 8069 8069 (.mapped, [7941, 953]) (.node .leaf 8070 8070 (.mapped, [7942, 953]) .leaf)) 8071 8071 (.mapped, [7943, 953]) (.node (.node .leaf 8072 8072 (.mapped, [7936, 953]) .leaf) 8073 8073 (.mapped, [7937, 953]) (.node .leaf 8074 8074 (.mapped, [7938, 953]) .leaf)))) 8075 8075 (.mapped, [7939, 953]) (.node (.node (.node (.node (.node .leaf 8076 8076 (.mapped, [7940, 953]) .leaf) 8077 8077 (.mapped, [7941, 953]) .leaf) 8078 8078 (.mapped, [7942, 953]) (.node .leaf 8079 8079 (.mapped, [7943, 953]) .leaf)) 8080 8080 (.mapped, [7968, 953]) (.node (.node .leaf 8081 8081 (.mapped, [7969, 953]) .leaf) 8082 8082 (.mapped, [7970, 953]) (.node .leaf 8083 8083 (.mapped, [7971, 953]) .leaf))) 8084 8084 (.mapped, [7972, 953]) (.node (.node (.node .leaf 8085 8085 (.mapped, [7973, 953]) .leaf) 8086 8086 (.mapped, [7974, 953]) (.node .leaf 8087 8087 (.mapped, [7975, 953]) .leaf)) 8088 8088 (.mapped, [7968, 953]) (.node (.node .leaf 8089 8089 (.mapped, [7969, 953]) .leaf) 8090 8090 (.mapped, [7970, 953]) (.node .leaf 8091 8091 (.mapped, [7971, 953]) .leaf))))) 8092 8092 (.mapped, [7972, 953]) (.node (.node (.node (.node (.node (.node .leaf 8093 8093 (.mapped, [7973, 953]) .leaf) 8094 8094 (.mapped, [7974, 953]) .leaf) 8095 8095 (.mapped, [7975, 953]) (.node .leaf 8096 8096 (.mapped, [8032, 953]) .leaf)) 8097 8097 (.mapped, [8033, 953]) (.node (.node .leaf 8098 8098 (.mapped, [8034, 953]) .leaf) 8099 8099 (.mapped, [8035, 953]) (.node .leaf 8100 8100 (.mapped, [8036, 953]) .leaf))) 8101 8101 (.mapped, [8037, 953]) (.node (.node (.node .leaf 8102 8102 (.mapped, [8038, 953]) .leaf) 8103 8103 (.mapped, [8039, 953]) (.node .leaf 8104 8104 (.mapped, [8032, 953]) .leaf)) 8105 8105 (.mapped, [8033, 953]) (.node (.node .leaf 8106 8106 (.mapped, [8034, 953]) .leaf) 8107 8107 (.mapped, [8035, 953]) (.node .leaf 8108 8108 (.mapped, [8036, 953]) .leaf)))) 8109 8109 (.mapped, [8037, 953]) (.node (.node (.node (.node (.node .leaf 8110 8110 (.mapped, [8038, 953]) .leaf) 8111 8111 (.mapped, [8039, 953]) .leaf) 8112 8113 (.valid, []) (.node .leaf 8114 8114 (.mapped, [8048, 953]) .leaf)) 8115 8115 (.mapped, [945, 953]) (.node (.node .leaf 8116 8116 (.mapped, [940, 953]) .leaf) 8117 8117 (.disallowed, []) (.node .leaf 8118 8118 (.valid, []) .leaf))) 8119 8119 (.mapped, [8118, 953]) (.node (.node (.node .leaf 8120 8120 (.mapped, [8112]) .leaf) 8121 8121 (.mapped, [8113]) (.node .leaf 8122 8122 (.mapped, [8048]) .leaf)) 8123 8123 (.mapped, [940]) (.node (.node .leaf 8124 8124 (.mapped, [945, 953]) .leaf) 8125 8125 (.std3Mapped, [32, 787]) (.node .leaf 8126 8126 (.mapped, [953]) .leaf)))))) 8127 8127 (.std3Mapped, [32, 787]) (.node (.node (.node (.node (.node (.node (.node .leaf 8128 8128 (.std3Mapped, [32, 834]) .leaf) 8129 8129 (.std3Mapped, [32, 776, 834]) .leaf) 8130 8130 (.mapped, [8052, 953]) (.node .leaf 8131 8131 (.mapped, [951, 953]) .leaf)) 8132 8132 (.mapped, [942, 953]) (.node (.node .leaf 8133 8133 (.disallowed, []) .leaf) 8134 8134 (.valid, []) (.node .leaf 8135 8135 (.mapped, [8134, 953]) .leaf))) 8136 8136 (.mapped, [8050]) (.node (.node (.node .leaf 8137 8137 (.mapped, [941]) .leaf) 8138 8138 (.mapped, [8052]) (.node .leaf 8139 8139 (.mapped, [942]) .leaf)) 8140 8140 (.mapped, [951, 953]) (.node (.node .leaf 8141 8141 (.std3Mapped, [32, 787, 768]) .leaf) 8142 8142 (.std3Mapped, [32, 787, 769]) (.node .leaf 8143 8143 (.std3Mapped, [32, 787, 834]) .leaf)))) 8144 8146 (.valid, []) (.node (.node (.node (.node (.node .leaf 8147 8147 (.mapped, [912]) .leaf) 8148 8149 (.disallowed, []) .leaf) 8150 8151 (.valid, []) (.node .leaf 8152 8152 (.mapped, [8144]) .leaf)) 8153 8153 (.mapped, [8145]) (.node (.node .leaf 8154 8154 (.mapped, [8054]) .leaf) 8155 8155 (.mapped, [943]) (.node .leaf 8156 8156 (.disallowed, []) .leaf))) 8157 8157 (.std3Mapped, [32, 788, 768]) (.node (.node (.node .leaf 8158 8158 (.std3Mapped, [32, 788, 769]) .leaf) 8159 8159 (.std3Mapped, [32, 788, 834]) (.node .leaf 8160 8162 (.valid, []) .leaf)) 8163 8163 (.mapped, [944]) (.node (.node .leaf 8164 8167 (.valid, []) .leaf) 8168 8168 (.mapped, [8160]) (.node .leaf 8169 8169 (.mapped, [8161]) .leaf))))) 8170 8170 (.mapped, [8058]) (.node (.node (.node (.node (.node (.node .leaf 8171 8171 (.mapped, [973]) .leaf) 8172 8172 (.mapped, [8165]) .leaf) 8173 8173 (.std3Mapped, [32, 776, 768]) (.node .leaf 8174 8174 (.std3Mapped, [32, 776, 769]) .leaf)) 8175 8175 (.std3Mapped, [96]) (.node (.node .leaf 8176 8177 (.disallowed, []) .leaf) 8178 8178 (.mapped, [8060, 953]) (.node .leaf 8179 8179 (.mapped, [969, 953]) .leaf))) 8180 8180 (.mapped, [974, 953]) (.node (.node (.node .leaf 8181 8181 (.disallowed, []) .leaf) 8182 8182 (.valid, []) (.node .leaf 8183 8183 (.mapped, [8182, 953]) .leaf)) 8184 8184 (.mapped, [8056]) (.node (.node .leaf 8185 8185 (.mapped, [972]) .leaf) 8186 8186 (.mapped, [8060]) (.node .leaf 8187 8187 (.mapped, [974]) .leaf)))) 8188 8188 (.mapped, [969, 953]) (.node (.node (.node (.node (.node .leaf 8189 8189 (.std3Mapped, [32, 769]) .leaf) 8190 8190 (.std3Mapped, [32, 788]) .leaf) 8191 8191 (.disallowed, []) (.node .leaf 8192 8202 (.std3Mapped, [32]) .leaf)) 8203 8203 (.ignored, []) (.node (.node .leaf 8204 8205 (.deviation, []) .leaf) 8206 8207 (.disallowed, []) (.node .leaf 8208 8208 (.valid, []) .leaf))) 8209 8209 (.mapped, [8208]) (.node (.node (.node .leaf 8210 8214 (.valid, []) .leaf) 8215 8215 (.std3Mapped, [32, 819]) (.node .leaf 8216 8227 (.valid, []) .leaf)) 8228 8230 (.disallowed, []) (.node (.node .leaf 8231 8231 (.valid, []) .leaf) 8232 8238 (.disallowed, []) (.node .leaf 8239 8239 (.std3Mapped, [32]) .leaf))))))) 8240 8242 (.valid, []) (.node (.node (.node (.node (.node (.node (.node (.node .leaf 8243 8243 (.mapped, [8242, 8242]) .leaf) 8244 8244 (.mapped, [8242, 8242, 8242]) .leaf) 8245 8245 (.valid, []) (.node .leaf 8246 8246 (.mapped, [8245, 8245]) .leaf)) 8247 8247 (.mapped, [8245, 8245, 8245]) (.node (.node .leaf 8248 8251 (.valid, []) .leaf) 8252 8252 (.std3Mapped, [33, 33]) (.node .leaf 8253 8253 (.valid, []) .leaf))) 8254 8254 (.std3Mapped, [32, 773]) (.node (.node (.node .leaf 8255 8262 (.valid, []) .leaf) 8263 8263 (.std3Mapped, [63, 63]) (.node .leaf 8264 8264 (.std3Mapped, [63, 33]) .leaf)) 8265 8265 (.std3Mapped, [33, 63]) (.node (.node .leaf 8266 8269 (.valid, []) .leaf) 8270 8274 (.valid, []) (.node .leaf 8275 8276 (.valid, []) .leaf)))) 8277 8278 (.valid, []) (.node (.node (.node (.node (.node .leaf 8279 8279 (.mapped, [8242, 8242, 8242, 8242]) .leaf) 8280 8286 (.valid, []) .leaf) 8287 8287 (.std3Mapped, [32]) (.node .leaf 8288 8288 (.ignored, []) .leaf)) 8289 8291 (.disallowed, []) (.node (.node .leaf 8292 8292 (.ignored, []) .leaf) 8293 8293 (.disallowed, []) (.node .leaf 8294 8297 (.disallowed, []) .leaf))) 8298 8303 (.disallowed, []) (.node (.node (.node .leaf 8304 8304 (.mapped, [48]) .leaf) 8305 8305 (.mapped, [105]) (.node .leaf 8306 8307 (.disallowed, []) .leaf)) 8308 8308 (.mapped, [52]) (.node (.node .leaf 8309 8309 (.mapped, [53]) .leaf) 8310 8310 (.mapped, [54]) (.node .leaf 8311 8311 (.mapped, [55]) .leaf))))) 8312 8312 (.mapped, [56]) (.node (.node (.node (.node (.node (.node .leaf 8313 8313 (.mapped, [57]) .leaf) 8314 8314 (.std3Mapped, [43]) .leaf) 8315 8315 (.mapped, [8722]) (.node .leaf 8316 8316 (.std3Mapped, [61]) .leaf)) 8317 8317 (.std3Mapped, [40]) (.node (.node .leaf 8318 8318 (.std3Mapped, [41]) .leaf) 8319 8319 (.mapped, [110]) (.node .leaf 8320 8320 (.mapped, [48]) .leaf))) 8321 8321 (.mapped, [49]) (.node (.node (.node .leaf 8322 8322 (.mapped, [50]) .leaf) 8323 8323 (.mapped, [51]) (.node .leaf 8324 8324 (.mapped, [52]) .leaf)) 8325 8325 (.mapped, [53]) (.node (.node .leaf 8326 8326 (.mapped, [54]) .leaf) 8327 8327 (.mapped, [55]) (.node .leaf 8328 8328 (.mapped, [56]) .leaf)))) 8329 8329 (.mapped, [57]) (.node (.node (.node (.node (.node .leaf 8330 8330 (.std3Mapped, [43]) .leaf) 8331 8331 (.mapped, [8722]) .leaf) 8332 8332 (.std3Mapped, [61]) (.node .leaf 8333 8333 (.std3Mapped, [40]) .leaf)) 8334 8334 (.std3Mapped, [41]) (.node (.node .leaf 8335 8335 (.disallowed, []) .leaf) 8336 8336 (.mapped, [97]) (.node .leaf 8337 8337 (.mapped, [101]) .leaf))) 8338 8338 (.mapped, [111]) (.node (.node (.node .leaf 8339 8339 (.mapped, [120]) .leaf) 8340 8340 (.mapped, [601]) (.node .leaf 8341 8341 (.mapped, [104]) .leaf)) 8342 8342 (.mapped, [107]) (.node (.node .leaf 8343 8343 (.mapped, [108]) .leaf) 8344 8344 (.mapped, [109]) (.node .leaf 8345 8345 (.mapped, [110]) .leaf)))))) 8346 8346 (.mapped, [112]) (.node (.node (.node (.node (.node (.node (.node .leaf 8347 8347 (.mapped, [115]) .leaf) 8348 8348 (.mapped, [116]) .leaf) 8349 8351 (.disallowed, []) (.node .leaf 8352 8359 (.valid, []) .leaf)) 8360 8360 (.mapped, [114, 115]) (.node (.node .leaf 8361 8362 (.valid, []) .leaf) 8363 8363 (.valid, []) (.node .leaf 8364 8364 (.valid, []) .leaf))) 8365 8367 (.valid, []) (.node (.node (.node .leaf 8368 8369 (.valid, []) .leaf) 8370 8373 (.valid, []) (.node .leaf 8374 8376 (.valid, []) .leaf)) 8377 8377 (.valid, []) (.node (.node .leaf 8378 8378 (.valid, []) .leaf) 8379 8381 (.valid, []) (.node .leaf 8382 8382 (.valid, []) .leaf)))) 8383 8383 (.valid, []) (.node (.node (.node (.node (.node .leaf 8384 8399 (.disallowed, []) .leaf) 8400 8417 (.valid, []) .leaf) 8418 8419 (.valid, []) (.node .leaf 8420 8426 (.valid, []) .leaf)) 8427 8427 (.valid, []) (.node (.node .leaf 8428 8431 (.valid, []) .leaf) 8432 8432 (.valid, []) (.node .leaf 8433 8447 (.disallowed, []) .leaf))) 8448 8448 (.std3Mapped, [97, 47, 99]) (.node (.node (.node .leaf 8449 8449 (.std3Mapped, [97, 47, 115]) .leaf) 8450 8450 (.mapped, [99]) (.node .leaf 8451 8451 (.mapped, [176, 99]) .leaf)) 8452 8452 (.valid, []) (.node (.node .leaf 8453 8453 (.std3Mapped, [99, 47, 111]) .leaf) 8454 8454 (.std3Mapped, [99, 47, 117]) (.node .leaf 8455 8455 (.mapped, [603]) .leaf))))) 8456 8456 (.valid, []) (.node (.node (.node (.node (.node (.node .leaf 8457 8457 (.mapped, [176, 102]) .leaf) 8458 8458 (.mapped, [103]) .leaf) 8459 8462 (.mapped, [104]) (.node .leaf 8463 8463 (.mapped, [295]) .leaf)) 8464 8465 (.mapped, [105]) (.node (.node .leaf 8466 8467 (.mapped, [108]) .leaf) 8468 8468 (.valid, []) (.node .leaf 8469 8469 (.mapped, [110]) .leaf))) 8470 8470 (.mapped, [110, 111]) (.node (.node (.node .leaf 8471 8472 (.valid, []) .leaf) 8473 8473 (.mapped, [112]) (.node .leaf 8474 8474 (.mapped, [113]) .leaf)) 8475 8477 (.mapped, [114]) (.node (.node .leaf 8478 8479 (.valid, []) .leaf) 8480 8480 (.mapped, [115, 109]) (.node .leaf 8481 8481 (.mapped, [116, 101, 108]) .leaf)))) 8482 8482 (.mapped, [116, 109]) (.node (.node (.node (.node (.node .leaf 8483 8483 (.valid, []) .leaf) 8484 8484 (.mapped, [122]) .leaf) 8485 8485 (.valid, []) (.node .leaf 8486 8486 (.mapped, [969]) .leaf)) 8487 8487 (.valid, []) (.node (.node .leaf 8488 8488 (.mapped, [122]) .leaf) 8489 8489 (.valid, []) (.node .leaf 8490 8490 (.mapped, [107]) .leaf))) 8491 8491 (.mapped, [229]) (.node (.node (.node .leaf 8492 8492 (.mapped, [98]) .leaf) 8493 8493 (.mapped, [99]) (.node .leaf 8494 8494 (.valid, []) .leaf)) 8495 8496 (.mapped, [101]) (.node (.node .leaf 8497 8497 (.mapped, [102]) .leaf) 8498 8498 (.disallowed, []) (.node .leaf 8499 8499 (.mapped, [109]) .leaf))))))))

def idnaTable9 : RTree (Status × List Nat) := (.node (.node (.node (.node (.node (.node (.node (.node (.node .leaf 8501 8501 (.mapped, [1488]) .leaf) 8502 8502 (.mapped, [1489]) .leaf) 8503 8503 (.mapped, [1490]) (.node .leaf 8504 8504 (.mapped, [1491]) .leaf)) 8505 8505 (.mapped, [105]) (.node (.node .leaf 8506 8506 (.valid, []) .leaf) 8507 8507 (.mapped, [102, 97, 120]) (.node .leaf 8508 8508 (.mapped, [960]) .leaf))) 8509 8510 (.mapped, [947]) (.node (.node (.node .leaf 8511 8511 (.mapped, [960]) .leaf) 8512 8512 (.mapped, [8721]) (.node .leaf 8513 8516 (.valid, []) .leaf)) 8517 8518 (.mapped, [100]) (.node (.node .leaf 8519 8519 (.mapped, [101]) .leaf) 8520 8520 (.mapped, [105]) (.node .leaf 8521 8521 (.mapped, [106]) .leaf)))) 8522 8523 (.valid, []) (.node (.node (.node (.node (.node .leaf 8524 8524 (.valid, []) .leaf) 8525 8525 (.valid, []) .leaf) 8526 8526 (.valid, []) (.node .leaf 8527 8527 (.valid, []) .leaf)) 8528 8528 (.mapped, [49, 8260, 55]) (.node (.node .leaf 8529 8529 (.mapped, [49, 8260, 57]) .leaf) 8530 8530 (.mapped, [49, 8260, 49, 48]) (.node .leaf 8531 8531 (.mapped, [49, 8260, 51]) .leaf))) 8532 8532 (.mapped, [50, 8260, 51]) (.node (.node (.node .leaf 8533 8533 (.mapped, [49, 8260, 53]) .leaf) 8534 8534 (.mapped, [50, 8260, 53]) (.node .leaf 8535 8535 (.mapped, [51, 8260, 53]) .leaf)) 8536 8536 (.mapped, [52, 8260, 53]) (.node (.node .leaf 8537 8537 (.mapped, [49, 8260, 54]) .leaf) 8538 8538 (.mapped, [53, 8260, 54]) (.node .leaf 8539 8539 (.mapped, [49, 8260, 56]) .leaf))))) 8540 8540 (.mapped, [51, 8260, 56]) (.node (.node (.node (.node (.node (.node .leaf 8541 8541 (.mapped, [53, 8260, 56]) .leaf) 8542 8542 (.mapped, [55, 8260, 56]) .leaf) 8543 8543 (.mapped, [49, 8260]) (.node .leaf 8544 8544 (.mapped, [105]) .leaf)) 8545 8545 (.mapped, [105, 105]) (.node (.node .leaf 8546 8546 (.mapped, [105, 105, 105]) .leaf) 8547 8547 (.mapped, [105, 118]) (.node .leaf 8548 8548 (.mapped, [118]) .leaf))) 8549 8549 (.mapped, [118, 105]) (.node (.node (.node .leaf 8550 8550 (.mapped, [118, 105, 105]) .leaf) 8551 8551 (.mapped, [118, 105, 105, 105]) (.node .leaf 8552 8552 (.mapped, [105, 120]) .leaf)) 8553 8553 (.mapped, [120]) (.node (.node .leaf 8554 8554 (.mapped, [120, 105]) .leaf) 8555 8555 (.mapped, [120, 105, 105]) (.node .leaf 8556 8556 (.mapped, [108]) .leaf)))) 8557 8557 (.mapped, [99]) (.node (.node (.node (.node (.node .leaf 8558 8558 (.mapped, [100]) .leaf) 8559 8559 (.mapped, [109]) .leaf) 8560 8560 (.mapped, [105]) (.node .leaf 8561 8561 (.mapped, [105, 105]) .leaf)) 8562 8562 (.mapped, [105, 105, 105]) (.node (.node .leaf 8563 8563 (.mapped, [105, 118]) .leaf) 8564 8564 (.mapped, [118]) (.node .leaf 8565 8565 (.mapped, [118, 105]) .leaf))) 8566 8566 (.mapped, [118, 105, 105]) (.node (.node (.node .leaf 8567 8567 (.mapped, [118, 105, 105, 105]) .leaf) 8568 8568 (.mapped, [105, 120]) (.node .leaf 8569 8569 (.mapped, [120]) .leaf)) 8570 8570 (.mapped, [120, 105]) (.node (.node .leaf 8571 8571 (.mapped, [120, 105, 105]) .leaf) 8572 8572 (.mapped, [108]) (.node .leaf 8573 8573 (.mapped, [99]) .leaf)))))) 8574 8574 (.mapped, [100]) (.node (.node (.node (.node (.node (.node (.node .leaf 8575 8575 (.mapped, [109]) .leaf) 8576 8578 (.valid, []) .leaf) 8579 8579 (.disallowed, []) (.node .leaf 8580 8580 (.valid, []) .leaf)) 8581 8584 (.valid, []) (.node (.node .leaf 8585 8585 (.mapped, [48, 8260, 51]) .leaf) 8586 8587 (.valid, []) (.node .leaf 8588 8591 (.disallowed, []) .leaf))) 8592 8682 (.valid, []) (.node (.node (.node .leaf 8683 8691 (.valid, []) .leaf) 8692 8703 (.valid, []) (.node .leaf 8704 8747 (.valid, []) .leaf)) 8748 8748 (.mapped, [8747, 8747]) (.node (.node .leaf 8749 8749 (.mapped, [8747, 8747, 8747]) .leaf) 8750 8750 (.valid, []) (.node .leaf 8751 8751 (.mapped, [8750, 8750]) .leaf)))) 8752 8752 (.mapped, [8750, 8750, 8750]) (.node (.node (.node (.node (.node .leaf 8753 8799 (.valid, []) .leaf) 8800 8800 (.std3Valid, []) .leaf) 8801 8813 (.valid, []) (.node .leaf 8814 8815 (.std3Valid, []) .leaf)) 8816 8945 (.valid, []) (.node (.node .leaf 8946 8959 (.valid, []) .leaf) 8960 8960 (.valid, []) (.node .leaf 8961 8961 (.valid, []) .leaf))) 8962 9000 (.valid, []) (.node (.node (.node .leaf 9001 9001 (.mapped, [12296]) .leaf) 9002 9002 (.mapped, [12297]) (.node .leaf 9003 9082 (.valid, []) .leaf)) 9083 9083 (.valid, []) (.node (.node .leaf 9084 9084 (.valid, []) .leaf) 9085 9114 (.valid, []) (.node .leaf 9115 9166 (.valid, []) .leaf))))) 9167 9168 (.valid, []) (.node (.node (.node (.node (.node (.node .leaf 9169 9179 (.valid, []) .leaf) 9180 9191 (.valid, []) .leaf) 9192 9192 (.valid, []) (.node .leaf 9193 9203 (.valid, []) .leaf)) 9204 9210 (.valid, []) (.node (.node .leaf 9211 9214 (.valid, []) .leaf) 9215 9215 (.valid, []) (.node .leaf 9216 9252 (.valid, []) .leaf))) 9253 9254 (.valid, []) (.node (.node (.node .leaf 9255 9279 (.disallowed, []) .leaf) 9280 9290 (.valid, []) (.node .leaf 9291 9311 (.disallowed, []) .leaf)) 9312 9312 (.mapped, [49]) (.node (.node .leaf 9313 9313 (.mapped, [50]) .leaf) 9314 9314 (.mapped, [51]) (.node .leaf 9315 9315 (.mapped, [52]) .leaf)))) 9316 9316 (.mapped, [53]) (.node (.node (.node (.node (.node .leaf 9317 9317 (.mapped, [54]) .leaf) 9318 9318 (.mapped, [55]) .leaf) 9319 9319 (.mapped, [56]) (.node .leaf 9320 9320 (.mapped, [57]) .leaf)) 9321 9321 (.mapped, [49, 48]) (.node (.node .leaf 9322 9322 (.mapped, [49, 49]) .leaf) 9323 9323 (.mapped, [49, 50]) (.node .leaf 9324 9324 (.mapped, [49, 51]) .leaf))) 9325 9325 (.mapped, [49, 52]) (.node (.node (.node .leaf 9326 9326 (.mapped, [49, 53]) .leaf) 9327 9327 (.mapped, [49, 54]) (.node .leaf 9328 9328 (.mapped, [49, 55]) .leaf)) 9329 9329 (.mapped, [49, 56]) (.node (.node .leaf 9330 9330 (.mapped, [49, 57]) .leaf) 9331 9331 (.mapped, [50, 48]) (.node .leaf 9332 9332 (.std3Mapped, [40, 49, 41]) .leaf))))))) 9333 9333 (.std3Mapped, [40, 50, 41]) (.node (.node (.node (.node (.node (.node (.node (.node .leaf 9334 9334 (.std3Mapped, [40, 51, 41]) .leaf) 9335 9335 (.std3Mapped, [40, 52, 41]) .leaf) 9336 9336 (.std3Mapped, [40, 53, 41]) (.node .leaf 9337 9337 (.std3Mapped, [40, 54, 41]) .leaf)) 9338 9338 (.std3Mapped, [40, 55, 41]) (.node (.node .leaf 9339 9339 (.std3Mapped, [40, 56, 41]) .leaf) 9340 9340 (.std3Mapped, [40, 57, 41]) (.node .leaf 9341 9341 (.std3Mapped, [40, 49, 48, 41]) .leaf))) 9342 9342 (.std3Mapped, [40, 49, 49, 41]) (.node (.node (.node .leaf 9343 9343 (.std3Mapped, [40, 49, 50, 41]) .leaf) 9344 9344 (.std3Mapped, [40, 49, 51, 41]) (.node .leaf 9345 9345 (.std3Mapped, [40, 49, 52, 41]) .leaf)) 9346 9346 (.std3Mapped, [40, 49, 53, 41]) (.node (.node .leaf 9347 9347 (.std3Mapped, [40, 49, 54, 41]) .leaf) 9348 9348 (.std3Mapped, [40, 49, 55, 41]) (.node .leaf 9349 9349 (.std3Mapped, [40, 49, 56, 41]) .leaf)))) 9350 9350 (.std3Mapped, [40, 49, 57, 41]) (.node (.node (.node (.node (.node .leaf 9351 9351 (.std3Mapped, [40, 50, 48, 41]) .leaf) 9352 9371 (.disallowed, []) .leaf) 9372 9372 (.std3Mapped, [40, 97, 41]) (.node .leaf 9373 9373 (.std3Mapped, [40, 98, 41]) .leaf)) 9374 9374 (.std3Mapped, [40, 99, 41]) (.node (.node .leaf 9375 9375 (.std3Mapped, [40, 100, 41]) .leaf) 9376 9376 (.std3Mapped, [40, 101, 41]) (.node .leaf 9377 9377 (.std3Mapped, [40, 102, 41]) .leaf))) 9378 9378 (.std3Mapped, [40, 103, 41]) (.node (.node (.node .leaf 9379 9379 (.std3Mapped, [40, 104, 41]) .leaf) 9380 9380 (.std3Mapped, [40, 105, 41]) (.node .leaf 9381 9381 (.std3Mapped, [40, 106, 41]) .leaf)) 9382 9382 (.std3Mapped, [40, 107, 41]) (.node (.node .leaf 9383 9383 (.std3Mapped, [40, 108, 41]) .leaf) 9384 9384 (.std3Mapped, [40, 109, 41]) (.node .leaf 9385 9385 (.std3Mapped, [40, 110, 41]) .leaf))))) 9386 9386 (.std3Mapped, [40, 111, 41]) (.node (.node (.node (.node (.node (.node .leaf 9387 9387 (.std3Mapped, [40, 112, 41]) .leaf) 9388 9388 (.std3Mapped, [40, 113, 41]) .leaf) 9389 9389 (.std3Mapped, [40, 114, 41]) (.node .leaf 9390 9390 (.std3Mapped, [40, 115, 41]) .leaf)) 9391 9391 (.std3Mapped, [40, 116, 41]) (.node (.node .leaf 9392 9392 (.std3Mapped, [40, 117, 41]) .leaf) 9393 9393 (.std3Mapped, [40, 118, 41]) (.node .leaf 9394 9394 (.std3Mapped, [40, 119, 41]) .leaf))) 9395 9395 (.std3Mapped, [40, 120, 41]) (.node (.node (.node .leaf 9396 9396 (.std3Mapped, [40, 121, 41]) .leaf) 9397 9397 (.std3Mapped, [40, 122, 41]) (.node .leaf 9398 9398 (.mapped, [97]) .leaf)) 9399 9399 (.mapped, [98]) (.node (.node .leaf 9400 9400 (.mapped, [99]) .leaf) 9401 9401 (.mapped, [100]) (.node .leaf 9402 9402 (.mapped, [101]) .leaf)))) 9403 9403 (.mapped, [102]) (.node (.node (.node (.node (.node .leaf 9404 9404 (.mapped, [103]) .leaf) 9405 9405 (.mapped, [104]) .leaf) 9406 9406 (.mapped, [105]) (.node .leaf 9407 9407 (.mapped, [106]) .leaf)) 9408 9408 (.mapped, [107]) (.node (.node .leaf 9409 9409 (.mapped, [108]) .leaf) 9410 9410 (.mapped, [109]) (.node .leaf 9411 9411 (.mapped, [110]) .leaf))) 9412 9412 (.mapped, [111]) (.node (.node (.node .leaf 9413 9413 (.mapped, [112]) .leaf) 9414 9414 (.mapped, [113]) (.node .leaf 9415 9415 (.mapped, [114]) .leaf)) 9416 9416 (.mapped, [115]) (.node (.node .leaf 9417 9417 (.mapped, [116]) .leaf) 9418 9418 (.mapped, [117]) (.node .leaf 9419 9419 (.mapped, [118]) .leaf)))))) 9420 9420 (.mapped, [119]) (.node (.node (.node (.node (.node (.node (.node .leaf 9421 9421 (.mapped, [120]) .leaf) 9422 9422 (.mapped, [121]) .leaf) 9423 9423 (.mapped, [122]) (.node .leaf 9424 9424 (.mapped, [97]) .leaf)) 9425 9425 (.mapped, [98]) (.node (.node .leaf 9426 9426 (.mapped, [99]) .leaf) 9427 9427 (.mapped, [100]) (.node .leaf 9428 9428 (.mapped, [101]) .leaf))) 9429 9429 (.mapped, [102]) (.node (.node (.node .leaf 9430 9430 (.mapped, [103]) .leaf) 9431 9431 (.mapped, [104]) (.node .leaf 9432 9432 (.mapped, [105]) .leaf)) 9433 9433 (.mapped, [106]) (.node (.node .leaf 9434 9434 (.mapped, [107]) .leaf) 9435 9435 (.mapped, [108]) (.node .leaf 9436 9436 (.mapped, [109]) .leaf)))) 9437 9437 (.mapped, [110]) (.node (.node (.node (.node (.node .leaf 9438 9438 (.mapped, [111]) .leaf) 9439 9439 (.mapped, [112]) .leaf) 9440 9440 (.mapped, [113]) (.node .leaf 9441 9441 (.mapped, [114]) .leaf)) 9442 9442 (.mapped, [115]) (.node (.node .leaf 9443 9443 (.mapped, [116]) .leaf) 9444 9444 (.mapped, [117]) (.node .leaf 9445 9445 (.mapped, [118]) .leaf))) 9446 9446 (.mapped, [119]) (.node (.node (.node .leaf 9447 9447 (.mapped, [120]) .leaf) 9448 9448 (.mapped, [121]) (.node .leaf 9449 9449 (.mapped, [122]) .leaf)) 9450 9450 (.mapped, [48]) (.node (.node .leaf 9451 9470 (.valid, []) .leaf) 9471 9471 (.valid, []) (.node .leaf 9472 9621 (.valid, []) .leaf))))) 9622 9631 (.valid, []) (.node (.node (.node (.node (.node (.node .leaf 9632 9711 (.valid, []) .leaf) 9712 9719 (.valid, []) .leaf) 9720 9727 (.valid, []) (.node .leaf 9728 9747 (.valid, []) .leaf)) 9748 9749 (.valid, []) (.node (.node .leaf 9750 9751 (.valid, []) .leaf) 9752 9752 (.valid, []) (.node .leaf 9753 9753 (.valid, []) .leaf))) 9754 9839 (.valid, []) (.node (.node (.node .leaf 9840 9841 (.valid, []) .leaf) 9842 9853 (.valid, []) (.node .leaf 9854 9855 (.valid, []) .leaf)) 9856 9865 (.valid, []) (.node (.node .leaf 9866 9873 (.valid, []) .leaf) 9874 9884 (.valid, []) (.node .leaf 9885 9885 (.valid, []) .leaf)))) 9886 9887 (.valid, []) (.node (.node (.node (.node (.node .leaf 9888 9889 (.valid, []) .leaf) 9890 9905 (.valid, []) .leaf) 9906 9906 (.valid, []) (.node .leaf 9907 9916 (.valid, []) .leaf)) 9917 9919 (.valid, []) (.node (.node .leaf 9920 9923 (.valid, []) .leaf) 9924 9933 (.valid, []) (.node .leaf 9934 9934 (.valid, []) .leaf))) 9935 9953 (.valid, []) (.node (.node (.node .leaf 9954 9954 (.valid, []) .leaf) 9955 9955 (.valid, []) (.node .leaf 9956 9959 (.valid, []) .leaf)) 9960 9983 (.valid, []) (.node (.node .leaf 9984 9984 (.valid, []) .leaf) 9985 9988 (.valid, []) (.node .leaf 9989 9989 (.valid, []) .leaf))))))))

def idnaTable10 : RTree (Status × List Nat) := (.node (.node (.node (.node (.node (.node (.node (.node (.node .leaf 9994 9995 (.valid, []) .leaf) 9996 10023 (.valid, []) .leaf) 10024 10024 (.valid, []) (.node .leaf 10025 10059 (.valid, []) .leaf)) 10060 10060 (.valid, []) (.node (.node .leaf 10061 10061 (.valid, []) .leaf) 10062 10062 (.valid, []) (.node .leaf 10063 10066 (.valid, []) .leaf))) 10067 10069 (.valid, []) (.node (.node (.node .leaf 10070 10070 (.valid, []) .leaf) 10071 10071 (.valid, []) (.node .leaf 10072 10078 (.valid, []) .leaf)) 10079 10080 (.valid, []) (.node (.node .leaf 10081 10087 (.valid, []) .leaf) 10088 10101 (.valid, []) (.node .leaf 10102 10132 (.valid, []) .leaf)))) 10133 10135 (.valid, []) (.node (.node (.node (.node (.node .leaf 10136 10159 (.valid, []) .leaf) 10160 10160 (.valid, []) .leaf) 10161 10174 (.valid, []) (.node .leaf 10175 10175 (.valid, []) .leaf)) 10176 10182 (.valid, []) (.node (.node .leaf 10183 10186 (.valid, []) .leaf) 10187 10187 (.valid, []) (.node .leaf 10188 10188 (.valid, []) .leaf))) 10189 10189 (.valid, []) (.node (.node (.node .leaf 10190 10191 (.valid, []) .leaf) 10192 10219 (.valid, []) (.node .leaf 10220 10223 (.valid, []) .leaf)) 10224 10239 (.valid, []) (.node (.node .leaf 10240 10495 (.valid, []) .leaf) 10496 10763 (.valid, []) (.node .leaf 10764 10764 (.mapped, [8747, 8747, 8747, 8747]) .leaf))))) 10765 10867 (.valid, []) (.node (.node (.node (.node (.node (.node .leaf 10868 10868 (.std3Mapped, [58, 58, 61]) .leaf) 10869 10869 (.std3Mapped, [61, 61]) .leaf) 10870 10870 (.std3Mapped, [61, 61, 61]) (.node .leaf 10871 10971 (.valid, []) .leaf)) 10972 10972 (.mapped, [10973, 824]) (.node (.node .leaf 10973 11007 (.valid, []) .leaf) 11008 11021 (.valid, []) (.node .leaf 11022 11027 (.valid, []) .leaf))) 11028 11034 (.valid, []) (.node (.node (.node .leaf 11035 11039 (.valid, []) .leaf) 11040 11043 (.valid, []) (.node .leaf 11044 11084 (.valid, []) .leaf)) 11085 11087 (.valid, []) (.node (.node .leaf 11088 11092 (.valid, []) .leaf) 11093 11097 (.valid, []) (.node .leaf 11098 11123 (.valid, []) .leaf)))) 11124 11125 (.disallowed, []) (.node (.node (.node (.node (.node .leaf 11126 11157 (.valid, []) .leaf) 11158 11158 (.disallowed, []) .leaf) 11159 11159 (.valid, []) (.node .leaf 11160 11193 (.valid, []) .leaf)) 11194 11196 (.valid, []) (.node (.node .leaf 11197 11208 (.valid, []) .leaf) 11209 11209 (.valid, []) (.node .leaf 11210 11217 (.valid, []) .leaf))) 11218 11218 (.valid, []) (.node (.node (.node .leaf 11219 11243 (.valid, []) .leaf) 11244 11247 (.valid, []) (.node .leaf 11248 11262 (.valid, []) .leaf)) 11263 11263 (.valid, []) (.node (.node .leaf 11264 11264 (.mapped, [11312]) .leaf) 11265 11265 (.mapped, [11313]) (.node .leaf 11266 11266 (.mapped, [11314]) .leaf)))))) 11267 11267 (.mapped, [11315]) (.node (.node (.node (.node (.node (.node (.node .leaf 11268 11268 (.mapped, [11316]) .leaf) 11269 11269 (.mapped, [11317]) .leaf) 11270 11270 (.mapped, [11318]) (.node .leaf 11271 11271 (.mapped, [11319]) .leaf)) 11272 11272 (.mapped, [11320]) (.node (.node .leaf 11273 11273 (.mapped, [11321]) .leaf) 11274 11274 (.mapped, [11322]) (.node .leaf 11275 11275 (.mapped, [11323]) .leaf))) 11276 11276 (.mapped, [11324]) (.node (.node (.node .leaf 11277 11277 (.mapped, [11325]) .leaf) 11278 11278 (.mapped, [11326]) (.node .leaf 11279 11279 (.mapped, [11327]) .leaf)) 11280 11280 (.mapped, [11328]) (.node (.node .leaf 11281 11281 (.mapped, [11329]) .leaf) 11282 11282 (.mapped, [11330]) (.node .leaf 11283 11283 (.mapped, [11331]) .leaf)))) 11284 11284 (.mapped, [11332]) (.node (.node (.node (.node (.node .leaf 11285 11285 (.mapped, [11333]) .leaf) 11286 11286 (.mapped, [11334]) .leaf) 11287 11287 (.mapped, [11335]) (.node .leaf 11288 11288 (.mapped, [11336]) .leaf)) 11289 11289 (.mapped, [11337]) (.node (.node .leaf 11290 11290 (.mapped, [11338]) .leaf) 11291 11291 (.mapped, [11339]) (.node .leaf 11292 11292 (.mapped, [11340]) .leaf))) 11293 11293 (.mapped, [11341]) (.node (.node (.node .leaf 11294 11294 (.mapped, [11342]) .leaf) 11295 11295 (.mapped, [11343]) (.node .leaf 11296 11296 (.mapped, [11344]) .leaf)) 11297 11297 (.mapped, [11345]) (.node (.node .leaf 11298 11298 (.mapped, [11346]) .leaf) 11299 11299 (.mapped, [11347]) (.node .leaf 11300 11300 (.mapped, [11348]) .leaf))))) 11301 11301 (.mapped, [11349]) (.node (.node (.node (.node (.node (.node .leaf 11302 11302 (.mapped, [11350]) .leaf) 11303 11303 (.mapped, [11351]) .leaf) 11304 11304 (.mapped, [11352]) (.node .leaf 11305 11305 (.mapped, [11353]) .leaf)) 11306 11306 (.mapped, [11354]) (.node (.node .leaf 11307 11307 (.mapped, [11355]) .leaf) 11308 11308 (.mapped, [11356]) (.node .leaf 11309 11309 (.mapped, [11357]) .leaf))) 11310 11310 (.mapped, [11358]) (.node (.node (.node .leaf 11311 11311 (.disallowed, []) .leaf) 11312 11358 (.valid, []) (.node .leaf 11359 11359 (.disallowed, []) .leaf)) 11360 11360 (.mapped, [11361]) (.node (.node .leaf 11361 11361 (.valid, []) .leaf) 11362 11362 (.mapped, [619]) (.node .leaf 11363 11363 (.mapped, [7549]) .leaf)))) 11364 11364 (.mapped, [637]) (.node (.node (.node (.node (.node .leaf 11365 11366 (.valid, []) .leaf) 11367 11367 (.mapped, [11368]) .leaf) 11368 11368 (.valid, []) (.node .leaf 11369 11369 (.mapped, [11370]) .leaf)) 11370 11370 (.valid, []) (.node (.node .leaf 11371 11371 (.mapped, [11372]) .leaf) 11372 11372 (.valid, []) (.node .leaf 11373 11373 (.mapped, [593]) .leaf))) 11374 11374 (.mapped, [625]) (.node (.node (.node .leaf 11375 11375 (.mapped, [592]) .leaf) 11376 11376 (.mapped, [594]) (.node .leaf 11377 11377 (.valid, []) .leaf)) 11378 11378 (.mapped, [11379]) (.node (.node .leaf 11379 11379 (.valid, []) .leaf) 11380 11380 (.valid, []) (.node .leaf 11381 11381 (.mapped, [11382]) .leaf))))))) 11382 11383 (.valid, []) (.node (.node (.node (.node (.node (.node (.node (.node .leaf 11384 11387 (.valid, []) .leaf) 11388 11388 (.mapped, [106]) .leaf) 11389 11389 (.mapped, [118]) (.node .leaf 11390 11390 (.mapped, [575]) .leaf)) 11391 11391 (.mapped, [576]) (.node (.node .leaf 11392 11392 (.mapped, [11393]) .leaf) 11393 11393 (.valid, []) (.node .leaf 11394 11394 (.mapped, [11395]) .leaf))) 11395 11395 (.valid, []) (.node (.node (.node .leaf 11396 11396 (.mapped, [11397]) .leaf) 11397 11397 (.valid, []) (.node .leaf 11398 11398 (.mapped, [11399]) .leaf)) 11399 11399 (.valid, []) (.node (.node .leaf 11400 11400 (.mapped, [11401]) .leaf) 11401 11401 (.valid, []) (.node .leaf 11402 11402 (.mapped, [11403]) .leaf)))) 11403 11403 (.valid, []) (.node (.node (.node (.node (.node .leaf 11404 11404 (.mapped, [11405]) .leaf) 11405 11405 (.valid, []) .leaf) 11406 11406 (.mapped, [11407]) (.node .leaf 11407 11407 (.valid, []) .leaf)) 11408 11408 (.mapped, [11409]) (.node (.node .leaf 11409 11409 (.valid, []) .leaf) 11410 11410 (.mapped, [11411]) (.node .leaf 11411 11411 (.valid, []) .leaf))) 11412 11412 (.mapped, [11413]) (.node (.node (.node .leaf 11413 11413 (.valid, []) .leaf) 11414 11414 (.mapped, [11415]) (.node .leaf 11415 11415 (.valid, []) .leaf)) 11416 11416 (.mapped, [11417]) (.node (.node .leaf 11417 11417 (.valid, []) .leaf) 11418 11418 (.mapped, [11419]) (.node .leaf 11419 11419 (.valid, []) .leaf))))) 11420 11420 (.mapped, [11421]) (.node (.node (.node (.node (.node (.node .leaf 11421 11421 (.valid, []) .leaf) 11422 11422 (.mapped, [11423]) .leaf) 11423 11423 (.valid, []) (.node .leaf 11424 11424 (.mapped, [11425]) .leaf)) 11425 11425 (.valid, []) (.node (.node .leaf 11426 11426 (.mapped, [11427]) .leaf) 11427 11427 (.valid, []) (.node .leaf 11428 11428 (.mapped, [11429]) .leaf))) 11429 11429 (.valid, []) (.node (.node (.node .leaf 11430 11430 (.mapped, [11431]) .leaf) 11431 11431 (.valid, []) (.node .leaf 11432 11432 (.mapped, [11433]) .leaf)) 11433 11433 (.valid, []) (.node (.node .leaf 11434 11434 (.mapped, [11435]) .leaf) 11435 11435 (.valid, []) (.node .leaf 11436 11436 (.mapped, [11437]) .leaf)))) 11437 11437 (.valid, []) (.node (.node (.node (.node (.node .leaf 11438 11438 (.mapped, [11439]) .leaf) 11439 11439 (.valid, []) .leaf) 11440 11440 (.mapped, [11441]) (.node .leaf 11441 11441 (.valid, []) .leaf)) 11442 11442 (.mapped, [11443]) (.node (.node .leaf 11443 11443 (.valid, []) .leaf) 11444 11444 (.mapped, [11445]) (.node .leaf 11445 11445 (.valid, []) .leaf))) 11446 11446 (.mapped, [11447]) (.node (.node (.node .leaf 11447 11447 (.valid, []) .leaf) 11448 11448 (.mapped, [11449]) (.node .leaf 11449 11449 (.valid, []) .leaf)) 11450 11450 (.mapped, [11451]) (.node (.node .leaf 11451 11451 (.valid, []) .leaf) 11452 11452 (.mapped, [11453]) (.node .leaf 11453 11453 (.valid, []) .leaf)))))) 11454 11454 (.mapped, [11455]) (.node (.node (.node (.node (.node (.node (.node .leaf 11455 11455 (.valid, []) .leaf) 11456 11456 (.mapped, [11457]) .leaf) 11457 11457 (.valid, []) (.node .leaf 11458 11458 (.mapped, [11459]) .leaf)) 11459 11459 (.valid, []) (.node (.node .leaf 11460 11460 (.mapped, [11461]) .leaf) 11461 11461 (.valid, []) (.node .leaf 11462 11462 (.mapped, [11463]) .leaf))) 11463 11463 (.valid, []) (.node (.node (.node .leaf 11464 11464 (.mapped, [11465]) .leaf) 11465 11465 (.valid, []) (.node .leaf 11466 11466 (.mapped, [11467]) .leaf)) 11467 11467 (.valid, []) (.node (.node .leaf 11468 11468 (.mapped, [11469]) .leaf) 11469 11469 (.valid, []) (.node .leaf 11470 11470 (.mapped, [11471]) .leaf)))) 11471 11471 (.valid, []) (.node (.node (.node (.node (.node .leaf 11472 11472 (.mapped, [11473]) .leaf) 11473 11473 (.valid, []) .leaf) 11474 11474 (.mapped, [11475]) (.node .leaf 11475 11475 (.valid, []) .leaf)) 11476 11476 (.mapped, [11477]) (.node (.node .leaf 11477 11477 (.valid, []) .leaf) 11478 11478 (.mapped, [11479]) (.node .leaf 11479 11479 (.valid, []) .leaf))) 11480 11480 (.mapped, [11481]) (.node (.node (.node .leaf 11481 11481 (.valid, []) .leaf) 11482 11482 (.mapped, [11483]) (.node .leaf 11483 11483 (.valid, []) .leaf)) 11484 11484 (.mapped, [11485]) (.node (.node .leaf 11485 11485 (.valid, []) .leaf) 11486 11486 (.mapped, [11487]) (.node .leaf 11487 11487 (.valid, []) .leaf))))) 11488 11488 (.mapped, [11489]) (.node (.node (.node (.node (.node (.node .leaf 11489 11489 (.valid, []) .leaf) 11490 11490 (.mapped, [11491]) .leaf) 11491 11492 (.valid, []) (.node .leaf 11493 11498 (.valid, []) .leaf)) 11499 11499 (.mapped, [11500]) (.node (.node .leaf 11500 11500 (.valid, []) .leaf) 11501 11501 (.mapped, [11502]) (.node .leaf 11502 11505 (.valid, []) .leaf))) 11506 11506 (.mapped, [11507]) (.node (.node (.node .leaf 11507 11507 (.valid, []) .leaf) 11508 11512 (.disallowed, []) (.node .leaf 11513 11519 (.valid, []) .leaf)) 11520 11557 (.valid, []) (.node (.node .leaf 11558 11558 (.disallowed, []) .leaf) 11559 11559 (.valid, []) (.node .leaf 11560 11564 (.disallowed, []) .leaf)))) 11565 11565 (.valid, []) (.node (.node (.node (.node (.node .leaf 11566 11567 (.disallowed, []) .leaf) 11568 11621 (.valid, []) .leaf) 11622 11623 (.valid, []) (.node .leaf 11624 11630 (.disallowed, []) .leaf)) 11631 11631 (.mapped, [11617]) (.node (.node .leaf 11632 11632 (.valid, []) .leaf) 11633 11646 (.disallowed, []) (.node .leaf 11647 11647 (.valid, []) .leaf))) 11648 11670 (.valid, []) (.node (.node (.node .leaf 11671 11679 (.disallowed, []) .leaf) 11680 11686 (.valid, []) (.node .leaf 11687 11687 (.disallowed, []) .leaf)) 11688 11694 (.valid, []) (.node (.node .leaf 11695 11695 (.disallowed, []) .leaf) 11696 11702 (.valid, []) (.node .leaf 11703 11703 (.disallowed, []) .leaf))))))))

def idnaTable11 : RTree (Status × List Nat) := (.node (.node (.node (.node (.node (.node (.node (.node (.node .leaf 11711 11711 (.disallowed, []) .leaf) 11712 11718 (.valid, []) .leaf) 11719 11719 (.disallowed, []) (.node .leaf 11720 11726 (.valid, []) .leaf)) 11727 11727 (.disallowed, []) (.node (.node .leaf 11728 11734 (.valid, []) .leaf) 11735 11735 (.disallowed, []) (.node .leaf 11736 11742 (.valid, []) .leaf))) 11743 11743 (.disallowed, []) (.node (.node (.node .leaf 11744 11775 (.valid, []) .leaf) 11776 11799 (.valid, []) (.node .leaf 11800 11803 (.valid, []) .leaf)) 11804 11805 (.valid, []) (.node (.node .leaf 11806 11822 (.valid, []) .leaf) 11823 11823 (.valid, []) (.node .leaf 11824 11824 (.valid, []) .leaf)))) 11825 11825 (.valid, []) (.node (.node (.node (.node (.node .leaf 11826 11835 (.valid, []) .leaf) 11836 11842 (.valid, []) .leaf) 11843 11844 (.valid, []) (.node .leaf 11845 11849 (.valid, []) .leaf)) 11850 11854 (.valid, []) (.node (.node .leaf 11855 11855 (.valid, []) .leaf) 11856 11858 (.valid, []) (.node .leaf 11859 11903 (.disallowed, []) .leaf))) 11904 11929 (.valid, []) (.node (.node (.node .leaf 11930 11930 (.disallowed, []) .leaf) 11931 11934 (.valid, []) (.node .leaf 11935 11935 (.mapped, [27597]) .leaf)) 11936 12018 (.valid, []) (.node (.node .leaf 12019 12019 (.mapped, [40863]) .leaf) 12020 12031 (.disallowed, []) (.node .leaf 12032 12032 (.mapped, [19968]) .leaf))))) 12033 12033 (.mapped, [20008]) (.node (.node (.node (.node (.node (.node .leaf 12034 12034 (.mapped, [20022]) .leaf) 12035 12035 (.mapped, [20031]) .leaf) 12036 12036 (.mapped, [20057]) (.node .leaf 12037 12037 (.mapped, [20101]) .leaf)) 12038 12038 (.mapped, [20108]) (.node (.node .leaf 12039 12039 (.mapped, [20128]) .leaf) 12040 12040 (.mapped, [20154]) (.node .leaf 12041 12041 (.mapped, [20799]) .leaf))) 12042 12042 (.mapped, [20837]) (.node (.node (.node .leaf 12043 12043 (.mapped, [20843]) .leaf) 12044 12044 (.mapped, [20866]) (.node .leaf 12045 12045 (.mapped, [20886]) .leaf)) 12046 12046 (.mapped, [20907]) (.node (.node .leaf 12047 12047 (.mapped, [20960]) .leaf) 12048 12048 (.mapped, [20981]) (.node .leaf 12049 12049 (.mapped, [20992]) .leaf)))) 12050 12050 (.mapped, [21147]) (.node (.node (.node (.node (.node .leaf 12051 12051 (.mapped, [21241]) .leaf) 12052 12052 (.mapped, [21269]) .leaf) 12053 12053 (.mapped, [21274]) (.node .leaf 12054 12054 (.mapped, [21304]) .leaf)) 12055 12055 (.mapped, [21313]) (.node (.node .leaf 12056 12056 (.mapped, [21340]) .leaf) 12057 12057 (.mapped, [21353]) (.node .leaf 12058 12058 (.mapped, [21378]) .leaf))) 12059 12059 (.mapped, [21430]) (.node (.node (.node .leaf 12060 12060 (.mapped, [21448]) .leaf) 12061 12061 (.mapped, [21475]) (.node .leaf 12062 12062 (.mapped, [22231]) .leaf)) 12063 12063 (.mapped, [22303]) (.node (.node .leaf 12064 12064 (.mapped, [22763]) .leaf) 12065 12065 (.mapped, [22786]) (.node .leaf 12066 12066 (.mapped, [22794]) .leaf)))))) 12067 12067 (.mapped, [22805]) (.node (.node (.node (.node (.node (.node (.node .leaf 12068 12068 (.mapped, [22823]) .leaf) 12069 12069 (.mapped, [22899]) .leaf) 12070 12070 (.mapped, [23376]) (.node .leaf 12071 12071 (.mapped, [23424]) .leaf)) 12072 12072 (.mapped, [23544]) (.node (.node .leaf 12073 12073 (.mapped, [23567]) .leaf) 12074 12074 (.mapped, [23586]) (.node .leaf 12075 12075 (.mapped, [23608]) .leaf))) 12076 12076 (.mapped, [23662]) (.node (.node (.node .leaf 12077 12077 (.mapped, [23665]) .leaf) 12078 12078 (.mapped, [24027]) (.node .leaf 12079 12079 (.mapped, [24037]) .leaf)) 12080 12080 (.mapped, [24049]) (.node (.node .leaf 12081 12081 (.mapped, [24062]) .leaf) 12082 12082 (.mapped, [24178]) (.node .leaf 12083 12083 (.mapped, [24186]) .leaf)))) 12084 12084 (.mapped, [24191]) (.node (.node (.node (.node (.node .leaf 12085 12085 (.mapped, [24308]) .leaf) 12086 12086 (.mapped, [24318]) .leaf) 12087 12087 (.mapped, [24331]) (.node .leaf 12088 12088 (.mapped, [24339]) .leaf)) 12089 12089 (.mapped, [24400]) (.node (.node .leaf 12090 12090 (.mapped, [24417]) .leaf) 12091 12091 (.mapped, [24435]) (.node .leaf 12092 12092 (.mapped, [24515]) .leaf))) 12093 12093 (.mapped, [25096]) (.node (.node (.node .leaf 12094 12094 (.mapped, [25142]) .leaf) 12095 12095 (.mapped, [25163]) (.node .leaf 12096 12096 (.mapped, [25903]) .leaf)) 12097 12097 (.mapped, [25908]) (.node (.node .leaf 12098 12098 (.mapped, [25991]) .leaf) 12099 12099 (.mapped, [26007]) (.node .leaf 12100 12100 (.mapped, [26020]) .leaf))))) 12101 12101 (.mapped, [26041]) (.node (.node (.node (.node (.node (.node .leaf 12102 12102 (.mapped, [26080]) .leaf) 12103 12103 (.mapped, [26085]) .leaf) 12104 12104 (.mapped, [26352]) (.node .leaf 12105 12105 (.mapped, [26376]) .leaf)) 12106 12106 (.mapped, [26408]) (.node (.node .leaf 12107 12107 (.mapped, [27424]) .leaf) 12108 12108 (.mapped, [27490]) (.node .leaf 12109 12109 (.mapped, [27513]) .leaf))) 12110 12110 (.mapped, [27571]) (.node (.node (.node .leaf 12111 12111 (.mapped, [27595]) .leaf) 12112 12112 (.mapped, [27604]) (.node .leaf 12113 12113 (.mapped, [27611]) .leaf)) 12114 12114 (.mapped, [27663]) (.node (.node .leaf 12115 12115 (.mapped, [27668]) .leaf) 12116 12116 (.mapped, [27700]) (.node .leaf 12117 12117 (.mapped, [28779]) .leaf)))) 12118 12118 (.mapped, [29226]) (.node (.node (.node (.node (.node .leaf 12119 12119 (.mapped, [29238]) .leaf) 12120 12120 (.mapped, [29243]) .leaf) 12121 12121 (.mapped, [29247]) (.node .leaf 12122 12122 (.mapped, [29255]) .leaf)) 12123 12123 (.mapped, [29273]) (.node (.node .leaf 12124 12124 (.mapped, [29275]) .leaf) 12125 12125 (.mapped, [29356]) (.node .leaf 12126 12126 (.mapped, [29572]) .leaf))) 12127 12127 (.mapped, [29577]) (.node (.node (.node .leaf 12128 12128 (.mapped, [29916]) .leaf) 12129 12129 (.mapped, [29926]) (.node .leaf 12130 12130 (.mapped, [29976]) .leaf)) 12131 12131 (.mapped, [29983]) (.node (.node .leaf 12132 12132 (.mapped, [29992]) .leaf) 12133 12133 (.mapped, [30000]) (.node .leaf 12134 12134 (.mapped, [30091]) .leaf))))))) 12135 12135 (.mapped, [30098]) (.node (.node (.node (.node (.node (.node (.node (.node .leaf 12136 12136 (.mapped, [30326]) .leaf) 12137 12137 (.mapped, [30333]) .leaf) 12138 12138 (.mapped, [30382]) (.node .leaf 12139 12139 (.mapped, [30399]) .leaf)) 12140 12140 (.mapped, [30446]) (.node (.node .leaf 12141 12141 (.mapped, [30683]) .leaf) 12142 12142 (.mapped, [30690]) (.node .leaf 12143 12143 (.mapped, [30707]) .leaf))) 12144 12144 (.mapped, [31034]) (.node (.node (.node .leaf 12145 12145 (.mapped, [31160]) .leaf) 12146 12146 (.mapped, [31166]) (.node .leaf 12147 12147 (.mapped, [31348]) .leaf)) 12148 12148 (.mapped, [31435]) (.node (.node .leaf 12149 12149 (.mapped, [31481]) .leaf) 12150 12150 (.mapped, [31859]) (.node .leaf 12151 12151 (.mapped, [31992]) .leaf)))) 12152 12152 (.mapped, [32566]) (.node (.node (.node (.node (.node .leaf 12153 12153 (.mapped, [32593]) .leaf) 12154 12154 (.mapped, [32650]) .leaf) 12155 12155 (.mapped, [32701]) (.node .leaf 12156 12156 (.mapped, [32769]) .leaf)) 12157 12157 (.mapped, [32780]) (.node (.node .leaf 12158 12158 (.mapped, [32786]) .leaf) 12159 12159 (.mapped, [32819]) (.node .leaf 12160 12160 (.mapped, [32895]) .leaf))) 12161 12161 (.mapped, [32905]) (.node (.node (.node .leaf 12162 12162 (.mapped, [33251]) .leaf) 12163 12163 (.mapped, [33258]) (.node .leaf 12164 12164 (.mapped, [33267]) .leaf)) 12165 12165 (.mapped, [33276]) (.node (.node .leaf 12166 12166 (.mapped, [33292]) .leaf) 12167 12167 (.mapped, [33307]) (.node .leaf 12168 12168 (.mapped, [33311]) .leaf))))) 12169 12169 (.mapped, [33390]) (.node (.node (.node (.node (.node (.node .leaf 12170 12170 (.mapped, [33394]) .leaf) 12171 12171 (.mapped, [33400]) .leaf) 12172 12172 (.mapped, [34381]) (.node .leaf 12173 12173 (.mapped, [34411]) .leaf)) 12174 12174 (.mapped, [34880]) (.node (.node .leaf 12175 12175 (.mapped, [34892]) .leaf) 12176 12176 (.mapped, [34915]) (.node .leaf 12177 12177 (.mapped, [35198]) .leaf))) 12178 12178 (.mapped, [35211]) (.node (.node (.node .leaf 12179 12179 (.mapped, [35282]) .leaf) 12180 12180 (.mapped, [35328]) (.node .leaf 12181 12181 (.mapped, [35895]) .leaf)) 12182 12182 (.mapped, [35910]) (.node (.node .leaf 12183 12183 (.mapped, [35925]) .leaf) 12184 12184 (.mapped, [35960]) (.node .leaf 12185 12185 (.mapped, [35997]) .leaf)))) 12186 12186 (.mapped, [36196]) (.node (.node (.node (.node (.node .leaf 12187 12187 (.mapped, [36208]) .leaf) 12188 12188 (.mapped, [36275]) .leaf) 12189 12189 (.mapped, [36523]) (.node .leaf 12190 12190 (.mapped, [36554]) .leaf)) 12191 12191 (.mapped, [36763]) (.node (.node .leaf 12192 12192 (.mapped, [36784]) .leaf) 12193 12193 (.mapped, [36789]) (.node .leaf 12194 12194 (.mapped, [37009]) .leaf))) 12195 12195 (.mapped, [37193]) (.node (.node (.node .leaf 12196 12196 (.mapped, [37318]) .leaf) 12197 12197 (.mapped, [37324]) (.node .leaf 12198 12198 (.mapped, [37329]) .leaf)) 12199 12199 (.mapped, [38263]) (.node (.node .leaf 12200 12200 (.mapped, [38272]) .leaf) 12201 12201 (.mapped, [38428]) (.node .leaf 12202 12202 (.mapped, [38582]) .leaf)))))) 12203 12203 (.mapped, [38585]) (.node (.node (.node (.node (.node (.node (.node .leaf 12204 12204 (.mapped, [38632]) .leaf) 12205 12205 (.mapped, [38737]) .leaf) 12206 12206 (.mapped, [38750]) (.node .leaf 12207 12207 (.mapped, [38754]) .leaf)) 12208 12208 (.mapped, [38761]) (.node (.node .leaf 12209 12209 (.mapped, [38859]) .leaf) 12210 12210 (.mapped, [38893]) (.node .leaf 12211 12211 (.mapped, [38899]) .leaf))) 12212 12212 (.mapped, [38913]) (.node (.node (.node .leaf 12213 12213 (.mapped, [39080]) .leaf) 12214 12214 (.mapped, [39131]) (.node .leaf 12215 12215 (.mapped, [39135]) .leaf)) 12216 12216 (.mapped, [39318]) (.node (.node .leaf 12217 12217 (.mapped, [39321]) .leaf) 12218 12218 (.mapped, [39340]) (.node .leaf 12219 12219 (.mapped, [39592]) .leaf)))) 12220 12220 (.mapped, [39640]) (.node (.node (.node (.node (.node .leaf 12221 12221 (.mapped, [39647]) .leaf) 12222 12222 (.mapped, [39717]) .leaf) 12223 12223 (.mapped, [39727]) (.node .leaf 12224 12224 (.mapped, [39730]) .leaf)) 12225 12225 (.mapped, [39740]) (.node (.node .leaf 12226 12226 (.mapped, [39770]) .leaf) 12227 12227 (.mapped, [40165]) (.node .leaf 12228 12228 (.mapped, [40565]) .leaf))) 12229 12229 (.mapped, [40575]) (.node (.node (.node .leaf 12230 12230 (.mapped, [40613]) .leaf) 12231 12231 (.mapped, [40635]) (.node .leaf 12232 12232 (.mapped, [40643]) .leaf)) 12233 12233 (.mapped, [40653]) (.node (.node .leaf 12234 12234 (.mapped, [40657]) .leaf) 12235 12235 (.mapped, [40697]) (.node .leaf 12236 12236 (.mapped, [40701]) .leaf))))) 12237 12237 (.mapped, [40718]) (.node (.node (.node (.node (.node (.node .leaf 12238 12238 (.mapped, [40723]) .leaf) 12239 12239 (.mapped, [40736]) .leaf) 12240 12240 (.mapped, [40763]) (.node .leaf 12241 12241 (.mapped, [40778]) .leaf)) 12242 12242 (.mapped, [40786]) (.node (.node .leaf 12243 12243 (.mapped, [40845]) .leaf) 12244 12244 (.mapped, [40860]) (.node .leaf 12245 12245 (.mapped, [40864]) .leaf))) 12246 12271 (.disallowed, []) (.node (.node (.node .leaf 12272 12283 (.disallowed, []) .leaf) 12284 12287 (.disallowed, []) (.node .leaf 12288 12288 (.std3Mapped, [32]) .leaf)) 12289 12289 (.valid, []) (.node (.node .leaf 12290 12290 (.mapped, [46]) .leaf) 12291 12292 (.valid, []) (.node .leaf 12293 12295 (.valid, []) .leaf)))) 12296 12329 (.valid, []) (.node (.node (.node (.node (.node .leaf 12330 12333 (.valid, []) .leaf) 12334 12341 (.valid, []) .leaf) 12342 12342 (.mapped, [12306]) (.node .leaf 12343 12343 (.valid, []) .leaf)) 12344 12344 (.mapped, [21313]) (.node (.node .leaf 12345 12345 (.mapped, [21316]) .leaf) 12346 12346 (.mapped, [21317]) (.node .leaf 12347 12347 (.valid, []) .leaf))) 12348 12348 (.valid, []) (.node (.node (.node .leaf 12349 12349 (.valid, []) .leaf) 12350 12350 (.valid, []) (.node .leaf 12351 12351 (.valid, []) .leaf)) 12352 12352 (.disallowed, []) (.node (.node .leaf 12353 12436 (.valid, []) .leaf) 12437 12438 (.valid, []) (.node .leaf 12439 12440 (.disallowed, []) .leaf))))))))

def idnaTable12 : RTree (Status × List Nat) := (.node (.node (.node (.node (.node (.node (.node (.node (.node .leaf 12443 12443 (.std3Mapped, [32, 12441]) .leaf) 12444 12444 (.std3Mapped, [32, 12442]) .leaf) 12445 12446 (.valid, []) (.node .leaf 12447 12447 (.mapped, [12424, 12426]) .leaf)) 12448 12448 (.valid, []) (.node (.node .leaf 12449 12542 (.valid, []) .leaf) 12543 12543 (.mapped, [12467, 12488]) (.node .leaf 12544 12548 (.disallowed, []) .leaf))) 12549 12588 (.valid, []) (.node (.node (.node (.node .leaf 12589 12589 (.valid, []) .leaf) 12590 12590 (.valid, []) .leaf) 12591 12591 (.valid, []) (.node .leaf 12592 12592 (.disallowed, []) .leaf)) 12593 12593 (.mapped, [4352]) (.node (.node .leaf 12594 12594 (.mapped, [4353]) .leaf) 12595 12595 (.mapped, [4522]) (.node .leaf 12596 12596 (.mapped, [4354]) .leaf)))) 12597 12597 (.mapped, [4524]) (.node (.node (.node (.node (.node .leaf 12598 12598 (.mapped, [4525]) .leaf) 12599 12599 (.mapped, [4355]) .leaf) 12600 12600 (.mapped, [4356]) (.node .leaf 12601 12601 (.mapped, [4357]) .leaf)) 12602 12602 (.mapped, [4528]) (.node (.node .leaf 12603 12603 (.mapped, [4529]) .leaf) 12604 12604 (.mapped, [4530]) (.node .leaf 12605 12605 (.mapped, [4531]) .leaf))) 12606 12606 (.mapped, [4532]) (.node (.node (.node .leaf 12607 12607 (.mapped, [4533]) .leaf) 12608 12608 (.mapped, [4378]) (.node .leaf 12609 12609 (.mapped, [4358]) .leaf)) 12610 12610 (.mapped, [4359]) (.node (.node .leaf 12611 12611 (.mapped, [4360]) .leaf) 12612 12612 (.mapped, [4385]) (.node .leaf 12613 12613 (.mapped, [4361]) .leaf))))) 12614 12614 (.mapped, [4362]) (.node (.node (.node (.node (.node (.node .leaf 12615 12615 (.mapped, [4363]) .leaf) 12616 12616 (.mapped, [4364]) .leaf) 12617 12617 (.mapped, [4365]) (.node .leaf 12618 12618 (.mapped, [4366]) .leaf)) 12619 12619 (.mapped, [4367]) (.node (.node .leaf 12620 12620 (.mapped, [4368]) .leaf) 12621 12621 (.mapped, [4369]) (.node .leaf 12622 12622 (.mapped, [4370]) .leaf))) 12623 12623 (.mapped, [4449]) (.node (.node (.node .leaf 12624 12624 (.mapped, [4450]) .leaf) 12625 12625 (.mapped, [4451]) (.node .leaf 12626 12626 (.mapped, [4452]) .leaf)) 12627 12627 (.mapped, [4453]) (.node (.node .leaf 12628 12628 (.mapped, [4454]) .leaf) 12629 12629 (.mapped, [4455]) (.node .leaf 12630 12630 (.mapped, [4456]) .leaf)))) 12631 12631 (.mapped, [4457]) (.node (.node (.node (.node (.node .leaf 12632 12632 (.mapped, [4458]) .leaf) 12633 12633 (.mapped, [4459]) .leaf) 12634 12634 (.mapped, [4460]) (.node .leaf 12635 12635 (.mapped, [4461]) .leaf)) 12636 12636 (.mapped, [4462]) (.node (.node .leaf 12637 12637 (.mapped, [4463]) .leaf) 12638 12638 (.mapped, [4464]) (.node .leaf 12639 12639 (.mapped, [4465]) .leaf))) 12640 12640 (.mapped, [4466]) (.node (.node (.node .leaf 12641 12641 (.mapped, [4467]) .leaf) 12642 12642 (.mapped, [4468]) (.node .leaf 12643 12643 (.mapped, [4469]) .leaf)) 12644 12644 (.disallowed, []) (.node (.node .leaf 12645 12645 (.mapped, [4372]) .leaf) 12646 12646 (.mapped, [4373]) (.node .leaf 12647 12647 (.mapped, [4551]) .leaf)))))) 12648 12648 (.mapped, [4552]) (.node (.node (.node (.node (.node (.node (.node .leaf 12649 12649 (.mapped, [4556]) .leaf) 12650 12650 (.mapped, [4558]) .leaf) 12651 12651 (.mapped, [4563]) (.node .leaf 12652 12652 (.mapped, [4567]) .leaf)) 12653 12653 (.mapped, [4569]) (.node (.node .leaf 12654 12654 (.mapped, [4380]) .leaf) 12655 12655 (.mapped, [4573]) (.node .leaf 12656 12656 (.mapped, [4575]) .leaf))) 12657 12657 (.mapped, [4381]) (.node (.node (.node .leaf 12658 12658 (.mapped, [4382]) .leaf) 12659 12659 (.mapped, [4384]) (.node .leaf 12660 12660 (.mapped, [4386]) .leaf)) 12661 12661 (.mapped, [4387]) (.node (.node .leaf 12662 12662 (.mapped, [4391]) .leaf) 12663 12663 (.mapped, [4393]) (.node .leaf 12664 12664 (.mapped, [4395]) .leaf)))) 12665 12665 (.mapped, [4396]) (.node (.node (.node (.node (.node .leaf 12666 12666 (.mapped, [4397]) .leaf) 12667 12667 (.mapped, [4398]) .leaf) 12668 12668 (.mapped, [4399]) (.node .leaf 12669 12669 (.mapped, [4402]) .leaf)) 12670 12670 (.mapped, [4406]) (.node (.node .leaf 12671 12671 (.mapped, [4416]) .leaf) 12672 12672 (.mapped, [4423]) (.node .leaf 12673 12673 (.mapped, [4428]) .leaf))) 12674 12674 (.mapped, [4593]) (.node (.node (.node .leaf 12675 12675 (.mapped, [4594]) .leaf) 12676 12676 (.mapped, [4439]) (.node .leaf 12677 12677 (.mapped, [4440]) .leaf)) 12678 12678 (.mapped, [4441]) (.node (.node .leaf 12679 12679 (.mapped, [4484]) .leaf) 12680 12680 (.mapped, [4485]) (.node .leaf 12681 12681 (.mapped, [4488]) .leaf))))) 12682 12682 (.mapped, [4497]) (.node (.node (.node (.node (.node (.node .leaf 12683 12683 (.mapped, [4498]) .leaf) 12684 12684 (.mapped, [4500]) .leaf) 12685 12685 (.mapped, [4510]) (.node .leaf 12686 12686 (.mapped, [4513]) .leaf)) 12687 12687 (.disallowed, []) (.node (.node .leaf 12688 12689 (.valid, []) .leaf) 12690 12690 (.mapped, [19968]) (.node .leaf 12691 12691 (.mapped, [20108]) .leaf))) 12692 12692 (.mapped, [19977]) (.node (.node (.node .leaf 12693 12693 (.mapped, [22235]) .leaf) 12694 12694 (.mapped, [19978]) (.node .leaf 12695 12695 (.mapped, [20013]) .leaf)) 12696 12696 (.mapped, [19979]) (.node (.node .leaf 12697 12697 (.mapped, [30002]) .leaf) 12698 12698 (.mapped, [20057]) (.node .leaf 12699 12699 (.mapped, [19993]) .leaf)))) 12700 12700 (.mapped, [19969]) (.node (.node (.node (.node (.node .leaf 12701 12701 (.mapped, [22825]) .leaf) 12702 12702 (.mapped, [22320]) .leaf) 12703 12703 (.mapped, [20154]) (.node .leaf 12704 12727 (.valid, []) .leaf)) 12728 12730 (.valid, []) (.node (.node .leaf 12731 12735 (.valid, []) .leaf) 12736 12751 (.valid, []) (.node .leaf 12752 12771 (.valid, []) .leaf))) 12772 12783 (.disallowed, []) (.node (.node (.node .leaf 12784 12799 (.valid, []) .leaf) 12800 12800 (.std3Mapped, [40, 4352, 41]) (.node .leaf 12801 12801 (.std3Mapped, [40, 4354, 41]) .leaf)) 12802 12802 (.std3Mapped, [40, 4355, 41]) (.node (.node .leaf 12803 12803 (.std3Mapped, [40, 4357, 41]) .leaf) 12804 12804 (.std3Mapped, [40, 4358, 41]) (.node .leaf 12805 12805 (.std3Mapped, [40, 4359, 41]) .leaf))))))) 12806 12806 (.std3Mapped, [40, 4361, 41]) (.node (.node (.node (.node (.node (.node (.node (.node .leaf 12807 12807 (.std3Mapped, [40, 4363, 41]) .leaf) 12808 12808 (.std3Mapped, [40, 4364, 41]) .leaf) 12809 12809 (.std3Mapped, [40, 4366, 41]) (.node .leaf 12810 12810 (.std3Mapped, [40, 4367, 41]) .leaf)) 12811 12811 (.std3Mapped, [40, 4368, 41]) (.node (.node .leaf 12812 12812 (.std3Mapped, [40, 4369, 41]) .leaf) 12813 12813 (.std3Mapped, [40, 4370, 41]) (.node .leaf 12814 12814 (.std3Mapped, [40, 44032, 41]) .leaf))) 12815 12815 (.std3Mapped, [40, 45208, 41]) (.node (.node (.node .leaf 12816 12816 (.std3Mapped, [40, 45796, 41]) .leaf) 12817 12817 (.std3Mapped, [40, 46972, 41]) (.node .leaf 12818 12818 (.std3Mapped, [40, 47560, 41]) .leaf)) 12819 12819 (.std3Mapped, [40, 48148, 41]) (.node (.node .leaf 12820 12820 (.std3Mapped, [40, 49324, 41]) .leaf) 12821 12821 (.std3Mapped, [40, 50500, 41]) (.node .leaf 12822 12822 (.std3Mapped, [40, 51088, 41]) .leaf)))) 12823 12823 (.std3Mapped, [40, 52264, 41]) (.node (.node (.node (.node (.node .leaf 12824 12824 (.std3Mapped, [40, 52852, 41]) .leaf) 12825 12825 (.std3Mapped, [40, 53440, 41]) .leaf) 12826 12826 (.std3Mapped, [40, 54028, 41]) (.node .leaf 12827 12827 (.std3Mapped, [40, 54616, 41]) .leaf)) 12828 12828 (.std3Mapped, [40, 51452, 41]) (.node (.node .leaf 12829 12829 (.std3Mapped, [40, 50724, 51204, 41]) .leaf) 12830 12830 (.std3Mapped, [40, 50724, 54980, 41]) (.node .leaf 12831 12831 (.disallowed, []) .leaf))) 12832 12832 (.std3Mapped, [40, 19968, 41]) (.node (.node (.node .leaf 12833 12833 (.std3Mapped, [40, 20108, 41]) .leaf) 12834 12834 (.std3Mapped, [40, 19977, 41]) (.node .leaf 12835 12835 (.std3Mapped, [40, 22235, 41]) .leaf)) 12836 12836 (.std3Mapped, [40, 20116, 41]) (.node (.node .leaf 12837 12837 (.std3Mapped, [40, 20845, 41]) .leaf) 12838 12838 (.std3Mapped, [40, 19971, 41]) (.node .leaf 12839 12839 (.std3Mapped, [40, 20843, 41]) .leaf))))) 12840 12840 (.std3Mapped, [40, 20061, 41]) (.node (.node (.node (.node (.node (.node .leaf 12841 12841 (.std3Mapped, [40, 21313, 41]) .leaf) 12842 12842 (.std3Mapped, [40, 26376, 41]) .leaf) 12843 12843 (.std3Mapped, [40, 28779, 41]) (.node .leaf 12844 12844 (.std3Mapped, [40, 27700, 41]) .leaf)) 12845 12845 (.std3Mapped, [40, 26408, 41]) (.node (.node .leaf 12846 12846 (.std3Mapped, [40, 37329, 41]) .leaf) 12847 12847 (.std3Mapped, [40, 22303, 41]) (.node .leaf 12848 12848 (.std3Mapped, [40, 26085, 41]) .leaf))) 12849 12849 (.std3Mapped, [40, 26666, 41]) (.node (.node (.node .leaf 12850 12850 (.std3Mapped, [40, 26377, 41]) .leaf) 12851 12851 (.std3Mapped, [40, 31038, 41]) (.node .leaf 12852 12852 (.std3Mapped, [40, 21517, 41]) .leaf)) 12853 12853 (.std3Mapped, [40, 29305, 41]) (.node (.node .leaf 12854 12854 (.std3Mapped, [40, 36001, 41]) .leaf) 12855 12855 (.std3Mapped, [40, 31069, 41]) (.node .leaf 12856 12856 (.std3Mapped, [40, 21172, 41]) .leaf)))) 12857 12857 (.std3Mapped, [40, 20195, 41]) (.node (.node (.node (.node (.node .leaf 12858 12858 (.std3Mapped, [40, 21628, 41]) .leaf) 12859 12859 (.std3Mapped, [40, 23398, 41]) .leaf) 12860 12860 (.std3Mapped, [40, 30435, 41]) (.node .leaf 12861 12861 (.std3Mapped, [40, 20225, 41]) .leaf)) 12862 12862 (.std3Mapped, [40, 36039, 41]) (.node (.node .leaf 12863 12863 (.std3Mapped, [40, 21332, 41]) .leaf) 12864 12864 (.std3Mapped, [40, 31085, 41]) (.node .leaf 12865 12865 (.std3Mapped, [40, 20241, 41]) .leaf))) 12866 12866 (.std3Mapped, [40, 33258, 41]) (.node (.node (.node .leaf 12867 12867 (.std3Mapped, [40, 33267, 41]) .leaf) 12868 12868 (.mapped, [21839]) (.node .leaf 12869 12869 (.mapped, [24188]) .leaf)) 12870 12870 (.mapped, [25991]) (.node (.node .leaf 12871 12871 (.mapped, [31631]) .leaf) 12872 12879 (.valid, []) (.node .leaf 12880 12880 (.mapped, [112, 116, 101]) .leaf)))))) 12881 12881 (.mapped, [50, 49]) (.node (.node (.node (.node (.node (.node (.node .leaf 12882 12882 (.mapped, [50, 50]) .leaf) 12883 12883 (.mapped, [50, 51]) .leaf) 12884 12884 (.mapped, [50, 52]) (.node .leaf 12885 12885 (.mapped, [50, 53]) .leaf)) 12886 12886 (.mapped, [50, 54]) (.node (.node .leaf 12887 12887 (.mapped, [50, 55]) .leaf) 12888 12888 (.mapped, [50, 56]) (.node .leaf 12889 12889 (.mapped, [50, 57]) .leaf))) 12890 12890 (.mapped, [51, 48]) (.node (.node (.node .leaf 12891 12891 (.mapped, [51, 49]) .leaf) 12892 12892 (.mapped, [51, 50]) (.node .leaf 12893 12893 (.mapped, [51, 51]) .leaf)) 12894 12894 (.mapped, [51, 52]) (.node (.node .leaf 12895 12895 (.mapped, [51, 53]) .leaf) 12896 12896 (.mapped, [4352]) (.node .leaf 12897 12897 (.mapped, [4354]) .leaf)))) 12898 12898 (.mapped, [4355]) (.node (.node (.node (.node (.node .leaf 12899 12899 (.mapped, [4357]) .leaf) 12900 12900 (.mapped, [4358]) .leaf) 12901 12901 (.mapped, [4359]) (.node .leaf 12902 12902 (.mapped, [4361]) .leaf)) 12903 12903 (.mapped, [4363]) (.node (.node .leaf 12904 12904 (.mapped, [4364]) .leaf) 12905 12905 (.mapped, [4366]) (.node .leaf 12906 12906 (.mapped, [4367]) .leaf))) 12907 12907 (.mapped, [4368]) (.node (.node (.node .leaf 12908 12908 (.mapped, [4369]) .leaf) 12909 12909 (.mapped, [4370]) (.node .leaf 12910 12910 (.mapped, [44032]) .leaf)) 12911 12911 (.mapped, [45208]) (.node (.node .leaf 12912 12912 (.mapped, [45796]) .leaf) 12913 12913 (.mapped, [46972]) (.node .leaf 12914 12914 (.mapped, [47560]) .leaf))))) 12915 12915 (.mapped, [48148]) (.node (.node (.node (.node (.node (.node .leaf 12916 12916 (.mapped, [49324]) .leaf) 12917 12917 (.mapped, [50500]) .leaf) 12918 12918 (.mapped, [51088]) (.node .leaf 12919 12919 (.mapped, [52264]) .leaf)) 12920 12920 (.mapped, [52852]) (.node (.node .leaf 12921 12921 (.mapped, [53440]) .leaf) 12922 12922 (.mapped, [54028]) (.node .leaf 12923 12923 (.mapped, [54616]) .leaf))) 12924 12924 (.mapped, [52280, 44256]) (.node (.node (.node .leaf 12925 12925 (.mapped, [51452, 51032]) .leaf) 12926 12926 (.mapped, [50864]) (.node .leaf 12927 12927 (.valid, []) .leaf)) 12928 12928 (.mapped, [19968]) (.node (.node .leaf 12929 12929 (.mapped, [20108]) .leaf) 12930 12930 (.mapped, [19977]) (.node .leaf 12931 12931 (.mapped, [22235]) .leaf)))) 12932 12932 (.mapped, [20116]) (.node (.node (.node (.node (.node .leaf 12933 12933 (.mapped, [20845]) .leaf) 12934 12934 (.mapped, [19971]) .leaf) 12935 12935 (.mapped, [20843]) (.node .leaf 12936 12936 (.mapped, [20061]) .leaf)) 12937 12937 (.mapped, [21313]) (.node (.node .leaf 12938 12938 (.mapped, [26376]) .leaf) 12939 12939 (.mapped, [28779]) (.node .leaf 12940 12940 (.mapped, [27700]) .leaf))) 12941 12941 (.mapped, [26408]) (.node (.node (.node .leaf 12942 12942 (.mapped, [37329]) .leaf) 12943 12943 (.mapped, [22303]) (.node .leaf 12944 12944 (.mapped, [26085]) .leaf)) 12945 12945 (.mapped, [26666]) (.node (.node .leaf 12946 12946 (.mapped, [26377]) .leaf) 12947 12947 (.mapped, [31038]) (.node .leaf 12948 12948 (.mapped, [21517]) .leaf))))))))

def idnaTable13 : RTree (Status × List Nat) := (.node (.node (.node (.node (.node (.node (.node (.node (.node .leaf 12950 12950 (.mapped, [36001]) .leaf) 12951 12951 (.mapped, [31069]) .leaf) 12952 12952 (.mapped, [21172]) (.node .leaf 12953 12953 (.mapped, [31192]) .leaf)) 12954 12954 (.mapped, [30007]) (.node (.node .leaf 12955 12955 (.mapped, [22899]) .leaf) 12956 12956 (.mapped, [36969]) (.node .leaf 12957 12957 (.mapped, [20778]) .leaf))) 12958 12958 (.mapped, [21360]) (.node (.node (.node .leaf 12959 12959 (.mapped, [27880]) .leaf) 12960 12960 (.mapped, [38917]) (.node .leaf 12961 12961 (.mapped, [20241]) .leaf)) 12962 12962 (.mapped, [20889]) (.node (.node .leaf 12963 12963 (.mapped, [27491]) .leaf) 12964 12964 (.mapped, [19978]) (.node .leaf 12965 12965 (.mapped, [20013]) .leaf)))) 12966 12966 (.mapped, [19979]) (.node (.node (.node (.node (.node .leaf 12967 12967 (.mapped, [24038]) .leaf) 12968 12968 (.mapped, [21491]) .leaf) 12969 12969 (.mapped, [21307]) (.node .leaf 12970 12970 (.mapped, [23447]) .leaf)) 12971 12971 (.mapped, [23398]) (.node (.node .leaf 12972 12972 (.mapped, [30435]) .leaf) 12973 12973 (.mapped, [20225]) (.node .leaf 12974 12974 (.mapped, [36039]) .leaf))) 12975 12975 (.mapped, [21332]) (.node (.node (.node .leaf 12976 12976 (.mapped, [22812]) .leaf) 12977 12977 (.mapped, [51, 54]) (.node .leaf 12978 12978 (.mapped, [51, 55]) .leaf)) 12979 12979 (.mapped, [51, 56]) (.node (.node .leaf 12980 12980 (.mapped, [51, 57]) .leaf) 12981 12981 (.mapped, [52, 48]) (.node .leaf 12982 12982 (.mapped, [52, 49]) .leaf))))) 12983 12983 (.mapped, [52, 50]) (.node (.node (.node (.node (.node (.node .leaf 12984 12984 (.mapped, [52, 51]) .leaf) 12985 12985 (.mapped, [52, 52]) .leaf) 12986 12986 (.mapped, [52, 53]) (.node .leaf 12987 12987 (.mapped, [52, 54]) .leaf)) 12988 12988 (.mapped, [52, 55]) (.node (.node .leaf 12989 12989 (.mapped, [52, 56]) .leaf) 12990 12990 (.mapped, [52, 57]) (.node .leaf 12991 12991 (.mapped, [53, 48]) .leaf))) 12992 12992 (.mapped, [49, 26376]) (.node (.node (.node .leaf 12993 12993 (.mapped, [50, 26376]) .leaf) 12994 12994 (.mapped, [51, 26376]) (.node .leaf 12995 12995 (.mapped, [52, 26376]) .leaf)) 12996 12996 (.mapped, [53, 26376]) (.node (.node .leaf 12997 12997 (.mapped, [54, 26376]) .leaf) 12998 12998 (.mapped, [55, 26376]) (.node .leaf 12999 12999 (.mapped, [56, 26376]) .leaf)))) 13000 13000 (.mapped, [57, 26376]) (.node (.node (.node (.node (.node .leaf 13001 13001 (.mapped, [49, 48, 26376]) .leaf) 13002 13002 (.mapped, [49, 49, 26376]) .leaf) 13003 13003 (.mapped, [49, 50, 26376]) (.node .leaf 13004 13004 (.mapped, [104, 103]) .leaf)) 13005 13005 (.mapped, [101, 114, 103]) (.node (.node .leaf 13006 13006 (.mapped, [101, 118]) .leaf) 13007 13007 (.mapped, [108, 116, 100]) (.node .leaf 13008 13008 (.mapped, [12450]) .leaf))) 13009 13009 (.mapped, [12452]) (.node (.node (.node .leaf 13010 13010 (.mapped, [12454]) .leaf) 13011 13011 (.mapped, [12456]) (.node .leaf 13012 13012 (.mapped, [12458]) .leaf)) 13013 13013 (.mapped, [12459]) (.node (.node .leaf 13014 13014 (.mapped, [12461]) .leaf) 13015 13015 (.mapped, [12463]) (.node .leaf 13016 13016 (.mapped, [12465]) .leaf)))))) 13017 13017 (.mapped, [12467]) (.node (.node (.node (.node (.node (.node (.node .leaf 13018 13018 (.mapped, [12469]) .leaf) 13019 13019 (.mapped, [12471]) .leaf) 13020 13020 (.mapped, [12473]) (.node .leaf 13021 13021 (.mapped, [12475]) .leaf)) 13022 13022 (.mapped, [12477]) (.node (.node .leaf 13023 13023 (.mapped, [12479]) .leaf) 13024 13024 (.mapped, [12481]) (.node .leaf 13025 13025 (.mapped, [12484]) .leaf))) 13026 13026 (.mapped, [12486]) (.node (.node (.node .leaf 13027 13027 (.mapped, [12488]) .leaf) 13028 13028 (.mapped, [12490]) (.node .leaf 13029 13029 (.mapped, [12491]) .leaf)) 13030 13030 (.mapped, [12492]) (.node (.node .leaf 13031 13031 (.mapped, [12493]) .leaf) 13032 13032 (.mapped, [12494]) (.node .leaf 13033 13033 (.mapped, [12495]) .leaf)))) 13034 13034 (.mapped, [12498]) (.node (.node (.node (.node (.node .leaf 13035 13035 (.mapped, [12501]) .leaf) 13036 13036 (.mapped, [12504]) .leaf) 13037 13037 (.mapped, [12507]) (.node .leaf 13038 13038 (.mapped, [12510]) .leaf)) 13039 13039 (.mapped, [12511]) (.node (.node .leaf 13040 13040 (.mapped, [12512]) .leaf) 13041 13041 (.mapped, [12513]) (.node .leaf 13042 13042 (.mapped, [12514]) .leaf))) 13043 13043 (.mapped, [12516]) (.node (.node (.node .leaf 13044 13044 (.mapped, [12518]) .leaf) 13045 13045 (.mapped, [12520]) (.node .leaf 13046 13046 (.mapped, [12521]) .leaf)) 13047 13047 (.mapped, [12522]) (.node (.node .leaf 13048 13048 (.mapped, [12523]) .leaf) 13049 13049 (.mapped, [12524]) (.node .leaf 13050 13050 (.mapped, [12525]) .leaf))))) 13051 13051 (.mapped, [12527]) (.node (.node (.node (.node (.node (.node .leaf 13052 13052 (.mapped, [12528]) .leaf) 13053 13053 (.mapped, [12529]) .leaf) 13054 13054 (.mapped, [12530]) (.node .leaf 13055 13055 (.mapped, [20196, 21644]) .leaf)) 13056 13056 (.mapped, [12450, 12497, 12540, 12488]) (.node (.node .leaf 13057 13057 (.mapped, [12450, 12523, 12501, 12449]) .leaf) 13058 13058 (.mapped, [12450, 12531, 12506, 12450]) (.node .leaf 13059 13059 (.mapped, [12450, 12540, 12523]) .leaf))) 13060 13060 (.mapped, [12452, 12491, 12531, 12464]) (.node (.node (.node .leaf 13061 13061 (.mapped, [12452, 12531, 12481]) .leaf) 13062 13062 (.mapped, [12454, 12457, 12531]) (.node .leaf 13063 13063 (.mapped, [12456, 12473, 12463, 12540, 12489]) .leaf)) 13064 13064 (.mapped, [12456, 12540, 12459, 12540]) (.node (.node .leaf 13065 13065 (.mapped, [12458, 12531, 12473]) .leaf) 13066 13066 (.mapped, [12458, 12540, 12512]) (.node .leaf 13067 13067 (.mapped, [12459, 12452, 12522]) .leaf)))) 13068 13068 (.mapped, [12459, 12521, 12483, 12488]) (.node (.node (.node (.node (.node .leaf 13069 13069 (.mapped, [12459, 12525, 12522, 12540]) .leaf) 13070 13070 (.mapped, [12460, 12525, 12531]) .leaf) 13071 13071 (.mapped, [12460, 12531, 12510]) (.node .leaf 13072 13072 (.mapped, [12462, 12460]) .leaf)) 13073 13073 (.mapped, [12462, 12491, 12540]) (.node (.node .leaf 13074 13074 (.mapped, [12461, 12517, 12522, 12540]) .leaf) 13075 13075 (.mapped, [12462, 12523, 12480, 12540]) (.node .leaf 13076 13076 (.mapped, [12461, 12525]) .leaf))) 13077 13077 (.mapped, [12461, 12525, 12464, 12521, 12512]) (.node (.node (.node .leaf 13078 13078 (.mapped, [12461, 12525, 12513, 12540, 12488, 12523]) .leaf) 13079 13079 (.mapped, [12461, 12525, 12527, 12483, 12488]) (.node .leaf 13080 13080 (.mapped, [12464, 12521, 12512]) .leaf)) 13081 13081 (.mapped, [12464, 12521, 12512, 12488, 12531]) (.node (.node .leaf 13082 13082 (.mapped, [12463, 12523, 12476, 12452, 12525]) .leaf) 13083 13083 (.mapped, [12463, 12525, 12540, 12493]) (.node .leaf 13084 13084 (.mapped, [12465, 12540, 12473]) .leaf))))))) 13085 13085 (.mapped, [12467, 12523, 12490]) (.node (.node (.node (.node (.node (.node (.node (.node .leaf 13086 13086 (.mapped, [12467, 12540, 12509]) .leaf) 13087 13087 (.mapped, [12469, 12452, 12463, 12523]) .leaf) 13088 13088 (.mapped, [12469, 12531, 12481, 12540, 12512]) (.node .leaf 13089 13089 (.mapped, [12471, 12522, 12531, 12464]) .leaf)) 13090 13090 (.mapped, [12475, 12531, 12481]) (.node (.node .leaf 13091 13091 (.mapped, [12475, 12531, 12488]) .leaf) 13092 13092 (.mapped, [12480, 12540, 12473]) (.node .leaf 13093 13093 (.mapped, [12487, 12471]) .leaf))) 13094 13094 (.mapped, [12489, 12523]) (.node (.node (.node .leaf 13095 13095 (.mapped, [12488, 12531]) .leaf) 13096 13096 (.mapped, [12490, 12494]) (.node .leaf 13097 13097 (.mapped, [12494, 12483, 12488]) .leaf)) 13098 13098 (.mapped, [12495, 12452, 12484]) (.node (.node .leaf 13099 13099 (.mapped, [12497, 12540, 12475, 12531, 12488]) .leaf) 13100 13100 (.mapped, [12497, 12540, 12484]) (.node .leaf 13101 13101 (.mapped, [12496, 12540, 12524, 12523]) .leaf)))) 13102 13102 (.mapped, [12500, 12450, 12473, 12488, 12523]) (.node (.node (.node (.node (.node .leaf 13103 13103 (.mapped, [12500, 12463, 12523]) .leaf) 13104 13104 (.mapped, [12500, 12467]) .leaf) 13105 13105 (.mapped, [12499, 12523]) (.node .leaf 13106 13106 (.mapped, [12501, 12449, 12521, 12483, 12489]) .leaf)) 13107 13107 (.mapped, [12501, 12451, 12540, 12488]) (.node (.node .leaf 13108 13108 (.mapped, [12502, 12483, 12471, 12455, 12523]) .leaf) 13109 13109 (.mapped, [12501, 12521, 12531]) (.node .leaf 13110 13110 (.mapped, [12504, 12463, 12479, 12540, 12523]) .leaf))) 13111 13111 (.mapped, [12506, 12477]) (.node (.node (.node .leaf 13112 13112 (.mapped, [12506, 12491, 12498]) .leaf) 13113 13113 (.mapped, [12504, 12523, 12484]) (.node .leaf 13114 13114 (.mapped, [12506, 12531, 12473]) .leaf)) 13115 13115 (.mapped, [12506, 12540, 12472]) (.node (.node .leaf 13116 13116 (.mapped, [12505, 12540, 12479]) .leaf) 13117 13117 (.mapped, [12509, 12452, 12531, 12488]) (.node .leaf 13118 13118 (.mapped, [12508, 12523, 12488]) .leaf))))) 13119 13119 (.mapped, [12507, 12531]) (.node (.node (.node (.node (.node (.node .leaf 13120 13120 (.mapped, [12509, 12531, 12489]) .leaf) 13121 13121 (.mapped, [12507, 12540, 12523]) .leaf) 13122 13122 (.mapped, [12507, 12540, 12531]) (.node .leaf 13123 13123 (.mapped, [12510, 12452, 12463, 12525]) .leaf)) 13124 13124 (.mapped, [12510, 12452, 12523]) (.node (.node .leaf 13125 13125 (.mapped, [12510, 12483, 12495]) .leaf) 13126 13126 (.mapped, [12510, 12523, 12463]) (.node .leaf 13127 13127 (.mapped, [12510, 12531, 12471, 12519, 12531]) .leaf))) 13128 13128 (.mapped, [12511, 12463, 12525, 12531]) (.node (.node (.node .leaf 13129 13129 (.mapped, [12511, 12522]) .leaf) 13130 13130 (.mapped, [12511, 12522, 12496, 12540, 12523]) (.node .leaf 13131 13131 (.mapped, [12513, 12460]) .leaf)) 13132 13132 (.mapped, [12513, 12460, 12488, 12531]) (.node (.node .leaf 13133 13133 (.mapped, [12513, 12540, 12488, 12523]) .leaf) 13134 13134 (.mapped, [12516, 12540, 12489]) (.node .leaf 13135 13135 (.mapped, [12516, 12540, 12523]) .leaf)))) 13136 13136 (.mapped, [12518, 12450, 12531]) (.node (.node (.node (.node (.node .leaf 13137 13137 (.mapped, [12522, 12483, 12488, 12523]) .leaf) 13138 13138 (.mapped, [12522, 12521]) .leaf) 13139 13139 (.mapped, [12523, 12500, 12540]) (.node .leaf 13140 13140 (.mapped, [12523, 12540, 12502, 12523]) .leaf)) 13141 13141 (.mapped, [12524, 12512]) (.node (.node .leaf 13142 13142 (.mapped, [12524, 12531, 12488, 12466, 12531]) .leaf) 13143 13143 (.mapped, [12527, 12483, 12488]) (.node .leaf 13144 13144 (.mapped, [48, 28857]) .leaf))) 13145 13145 (.mapped, [49, 28857]) (.node (.node (.node .leaf 13146 13146 (.mapped, [50, 28857]) .leaf) 13147 13147 (.mapped, [51, 28857]) (.node .leaf 13148 13148 (.mapped, [52, 28857]) .leaf)) 13149 13149 (.mapped, [53, 28857]) (.node (.node .leaf 13150 13150 (.mapped, [54, 28857]) .leaf) 13151 13151 (.mapped, [55, 28857]) (.node .leaf 13152 13152 (.mapped, [56, 28857]) .leaf)))))) 13153 13153 (.mapped, [57, 28857]) (.node (.node (.node (.node (.node (.node (.node .leaf 13154 13154 (.mapped, [49, 48, 28857]) .leaf) 13155 13155 (.mapped, [49, 49, 28857]) .leaf) 13156 13156 (.mapped, [49, 50, 28857]) (.node .leaf 13157 13157 (.mapped, [49, 51, 28857]) .leaf)) 13158 13158 (.mapped, [49, 52, 28857]) (.node (.node .leaf 13159 13159 (.mapped, [49, 53, 28857]) .leaf) 13160 13160 (.mapped, [49, 54, 28857]) (.node .leaf 13161 13161 (.mapped, [49, 55, 28857]) .leaf))) 13162 13162 (.mapped, [49, 56, 28857]) (.node (.node (.node .leaf 13163 13163 (.mapped, [49, 57, 28857]) .leaf) 13164 13164 (.mapped, [50, 48, 28857]) (.node .leaf 13165 13165 (.mapped, [50, 49, 28857]) .leaf)) 13166 13166 (.mapped, [50, 50, 28857]) (.node (.node .leaf 13167 13167 (.mapped, [50, 51, 28857]) .leaf) 13168 13168 (.mapped, [50, 52, 28857]) (.node .leaf 13169 13169 (.mapped, [104, 112, 97]) .leaf)))) 13170 13170 (.mapped, [100, 97]) (.node (.node (.node (.node (.node .leaf 13171 13171 (.mapped, [97, 117]) .leaf) 13172 13172 (.mapped, [98, 97, 114]) .leaf) 13173 13173 (.mapped, [111, 118]) (.node .leaf 13174 13174 (.mapped, [112, 99]) .leaf)) 13175 13175 (.mapped, [100, 109]) (.node (.node .leaf 13176 13176 (.mapped, [100, 109, 50]) .leaf) 13177 13177 (.mapped, [100, 109, 51]) (.node .leaf 13178 13178 (.mapped, [105, 117]) .leaf))) 13179 13179 (.mapped, [24179, 25104]) (.node (.node (.node .leaf 13180 13180 (.mapped, [26157, 21644]) .leaf) 13181 13181 (.mapped, [22823, 27491]) (.node .leaf 13182 13182 (.mapped, [26126, 27835]) .leaf)) 13183 13183 (.mapped, [26666, 24335, 20250, 31038]) (.node (.node .leaf 13184 13184 (.mapped, [112, 97]) .leaf) 13185 13185 (.mapped, [110, 97]) (.node .leaf 13186 13186 (.mapped, [956, 97]) .leaf))))) 13187 13187 (.mapped, [109, 97]) (.node (.node (.node (.node (.node (.node .leaf 13188 13188 (.mapped, [107, 97]) .leaf) 13189 13189 (.mapped, [107, 98]) .leaf) 13190 13190 (.mapped, [109, 98]) (.node .leaf 13191 13191 (.mapped, [103, 98]) .leaf)) 13192 13192 (.mapped, [99, 97, 108]) (.node (.node .leaf 13193 13193 (.mapped, [107, 99, 97, 108]) .leaf) 13194 13194 (.mapped, [112, 102]) (.node .leaf 13195 13195 (.mapped, [110, 102]) .leaf))) 13196 13196 (.mapped, [956, 102]) (.node (.node (.node .leaf 13197 13197 (.mapped, [956, 103]) .leaf) 13198 13198 (.mapped, [109, 103]) (.node .leaf 13199 13199 (.mapped, [107, 103]) .leaf)) 13200 13200 (.mapped, [104, 122]) (.node (.node .leaf 13201 13201 (.mapped, [107, 104, 122]) .leaf) 13202 13202 (.mapped, [109, 104, 122]) (.node .leaf 13203 13203 (.mapped, [103, 104, 122]) .leaf)))) 13204 13204 (.mapped, [116, 104, 122]) (.node (.node (.node (.node (.node .leaf 13205 13205 (.mapped, [956, 108]) .leaf) 13206 13206 (.mapped, [109, 108]) .leaf) 13207 13207 (.mapped, [100, 108]) (.node .leaf 13208 13208 (.mapped, [107, 108]) .leaf)) 13209 13209 (.mapped, [102, 109]) (.node (.node .leaf 13210 13210 (.mapped, [110, 109]) .leaf) 13211 13211 (.mapped, [956, 109]) (.node .leaf 13212 13212 (.mapped, [109, 109]) .leaf))) 13213 13213 (.mapped, [99, 109]) (.node (.node (.node .leaf 13214 13214 (.mapped, [107, 109]) .leaf) 13215 13215 (.mapped, [109, 109, 50]) (.node .leaf 13216 13216 (.mapped, [99, 109, 50]) .leaf)) 13217 13217 (.mapped, [109, 50]) (.node (.node .leaf 13218 13218 (.mapped, [107, 109, 50]) .leaf) 13219 13219 (.mapped, [109, 109, 51]) (.node .leaf 13220 13220 (.mapped, [99, 109, 51]) .leaf))))))))

def idnaTable14 : RTree (Status × List Nat) := (.node (.node (.node (.node (.node (.node (.node (.node (.node .leaf 13222 13222 (.mapped, [107, 109, 51]) .leaf) 13223 13223 (.mapped, [109, 8725, 115]) .leaf) 13224 13224 (.mapped, [109, 8725, 115, 50]) (.node .leaf 13225 13225 (.mapped, [112, 97]) .leaf)) 13226 13226 (.mapped, [107, 112, 97]) (.node (.node .leaf 13227 13227 (.mapped, [109, 112, 97]) .leaf) 13228 13228 (.mapped, [103, 112, 97]) (.node .leaf 13229 13229 (.mapped, [114, 97, 100]) .leaf))) 13230 13230 (.mapped, [114, 97, 100, 8725, 115]) (.node (.node (.node .leaf 13231 13231 (.mapped, [114, 97, 100, 8725, 115, 50]) .leaf) 13232 13232 (.mapped, [112, 115]) (.node .leaf 13233 13233 (.mapped, [110, 115]) .leaf)) 13234 13234 (.mapped, [956, 115]) (.node (.node .leaf 13235 13235 (.mapped, [109, 115]) .leaf) 13236 13236 (.mapped, [112, 118]) (.node .leaf 13237 13237 (.mapped, [110, 118]) .leaf)))) 13238 13238 (.mapped, [956, 118]) (.node (.node (.node (.node (.node .leaf 13239 13239 (.mapped, [109, 118]) .leaf) 13240 13240 (.mapped, [107, 118]) .leaf) 13241 13241 (.mapped, [109, 118]) (.node .leaf 13242 13242 (.mapped, [112, 119]) .leaf)) 13243 13243 (.mapped, [110, 119]) (.node (.node .leaf 13244 13244 (.mapped, [956, 119]) .leaf) 13245 13245 (.mapped, [109, 119]) (.node .leaf 13246 13246 (.mapped, [107, 119]) .leaf))) 13247 13247 (.mapped, [109, 119]) (.node (.node (.node .leaf 13248 13248 (.mapped, [107, 969]) .leaf) 13249 13249 (.mapped, [109, 969]) (.node .leaf 13250 13250 (.disallowed, []) .leaf)) 13251 13251 (.mapped, [98, 113]) (.node (.node .leaf 13252 13252 (.mapped, [99, 99]) .leaf) 13253 13253 (.mapped, [99, 100]) (.node .leaf 13254 13254 (.mapped, [99, 8725, 107, 103]) .leaf))))) 13255 13255 (.disallowed, []) (.node (.node (.node (.node (.node (.node .leaf 13256 13256 (.mapped, [100, 98]) .leaf) 13257 13257 (.mapped, [103, 121]) .leaf) 13258 13258 (.mapped, [104, 97]) (.node .leaf 13259 13259 (.mapped, [104, 112]) .leaf)) 13260 13260 (.mapped, [105, 110]) (.node (.node .leaf 13261 13261 (.mapped, [107, 107]) .leaf) 13262 13262 (.mapped, [107, 109]) (.node .leaf 13263 13263 (.mapped, [107, 116]) .leaf))) 13264 13264 (.mapped, [108, 109]) (.node (.node (.node .leaf 13265 13265 (.mapped, [108, 110]) .leaf) 13266 13266 (.mapped, [108, 111, 103]) (.node .leaf 13267 13267 (.mapped, [108, 120]) .leaf)) 13268 13268 (.mapped, [109, 98]) (.node (.node .leaf 13269 13269 (.mapped, [109, 105, 108]) .leaf) 13270 13270 (.mapped, [109, 111, 108]) (.node .leaf 13271 13271 (.mapped, [112, 104]) .leaf)))) 13272 13272 (.disallowed, []) (.node (.node (.node (.node (.node .leaf 13273 13273 (.mapped, [112, 112, 109]) .leaf) 13274 13274 (.mapped, [112, 114]) .leaf) 13275 13275 (.mapped, [115, 114]) (.node .leaf 13276 13276 (.mapped, [115, 118]) .leaf)) 13277 13277 (.mapped, [119, 98]) (.node (.node .leaf 13278 13278 (.mapped, [118, 8725, 109]) .leaf) 13279 13279 (.mapped, [97, 8725, 109]) (.node .leaf 13280 13280 (.mapped, [49, 26085]) .leaf))) 13281 13281 (.mapped, [50, 26085]) (.node (.node (.node .leaf 13282 13282 (.mapped, [51, 26085]) .leaf) 13283 13283 (.mapped, [52, 26085]) (.node .leaf 13284 13284 (.mapped, [53, 26085]) .leaf)) 13285 13285 (.mapped, [54, 26085]) (.node (.node .leaf 13286 13286 (.mapped, [55, 26085]) .leaf) 13287 13287 (.mapped, [56, 26085]) (.node .leaf 13288 13288 (.mapped, [57, 26085]) .leaf)))))) 13289 13289 (.mapped, [49, 48, 26085]) (.node (.node (.node (.node (.node (.node (.node .leaf 13290 13290 (.mapped, [49, 49, 26085]) .leaf) 13291 13291 (.mapped, [49, 50, 26085]) .leaf) 13292 13292 (.mapped, [49, 51, 26085]) (.node .leaf 13293 13293 (.mapped, [49, 52, 26085]) .leaf)) 13294 13294 (.mapped, [49, 53, 26085]) (.node (.node .leaf 13295 13295 (.mapped, [49, 54, 26085]) .leaf) 13296 13296 (.mapped, [49, 55, 26085]) (.node .leaf 13297 13297 (.mapped, [49, 56, 26085]) .leaf))) 13298 13298 (.mapped, [49, 57, 26085]) (.node (.node (.node .leaf 13299 13299 (.mapped, [50, 48, 26085]) .leaf) 13300 13300 (.mapped, [50, 49, 26085]) (.node .leaf 13301 13301 (.mapped, [50, 50, 26085]) .leaf)) 13302 13302 (.mapped, [50, 51, 26085]) (.node (.node .leaf 13303 13303 (.mapped, [50, 52, 26085]) .leaf) 13304 13304 (.mapped, [50, 53, 26085]) (.node .leaf 13305 13305 (.mapped, [50, 54, 26085]) .leaf)))) 13306 13306 (.mapped, [50, 55, 26085]) (.node (.node (.node (.node (.node .leaf 13307 13307 (.mapped, [50, 56, 26085]) .leaf) 13308 13308 (.mapped, [50, 57, 26085]) .leaf) 13309 13309 (.mapped, [51, 48, 26085]) (.node .leaf 13310 13310 (.mapped, [51, 49, 26085]) .leaf)) 13311 13311 (.mapped, [103, 97, 108]) (.node (.node .leaf 13312 19893 (.valid, []) .leaf) 19894 19903 (.valid, []) (.node .leaf 19904 19967 (.valid, []) .leaf))) 19968 40869 (.valid, []) (.node (.node (.node .leaf 40870 40891 (.valid, []) .leaf) 40892 40899 (.valid, []) (.node .leaf 40900 40907 (.valid, []) .leaf)) 40908 40908 (.valid, []) (.node (.node .leaf 40909 40917 (.valid, []) .leaf) 40918 40938 (.valid, []) (.node .leaf 40939 40943 (.valid, []) .leaf))))) 40944 40956 (.valid, []) (.node (.node (.node (.node (.node (.node .leaf 40957 40959 (.disallowed, []) .leaf) 40960 42124 (.valid, []) .leaf) 42125 42127 (.disallowed, []) (.node .leaf 42128 42145 (.valid, []) .leaf)) 42146 42147 (.valid, []) (.node (.node .leaf 42148 42163 (.valid, []) .leaf) 42164 42164 (.valid, []) (.node .leaf 42165 42176 (.valid, []) .leaf))) 42177 42177 (.valid, []) (.node (.node (.node .leaf 42178 42180 (.valid, []) .leaf) 42181 42181 (.valid, []) (.node .leaf 42182 42182 (.valid, []) .leaf)) 42183 42191 (.disallowed, []) (.node (.node .leaf 42192 42237 (.valid, []) .leaf) 42238 42239 (.valid, []) (.node .leaf 42240 42508 (.valid, []) .leaf)))) 42509 42511 (.valid, []) (.node (.node (.node (.node (.node .leaf 42512 42539 (.valid, []) .leaf) 42540 42559 (.disallowed, []) .leaf) 42560 42560 (.mapped, [42561]) (.node .leaf 42561 42561 (.valid, []) .leaf)) 42562 42562 (.mapped, [42563]) (.node (.node .leaf 42563 42563 (.valid, []) .leaf) 42564 42564 (.mapped, [42565]) (.node .leaf 42565 42565 (.valid, []) .leaf))) 42566 42566 (.mapped, [42567]) (.node (.node (.node .leaf 42567 42567 (.valid, []) .leaf) 42568 42568 (.mapped, [42569]) (.node .leaf 42569 42569 (.valid, []) .leaf)) 42570 42570 (.mapped, [42571]) (.node (.node .leaf 42571 42571 (.valid, []) .leaf) 42572 42572 (.mapped, [42573]) (.node .leaf 42573 42573 (.valid, []) .leaf))))))) 42574 42574 (.mapped, [42575]) (.node (.node (.node (.node (.node (.node (.node (.node .leaf 42575 42575 (.valid, []) .leaf) 42576 42576 (.mapped, [42577]) .leaf) 42577 42577 (.valid, []) (.node .leaf 42578 42578 (.mapped, [42579]) .leaf)) 42579 42579 (.valid, []) (.node (.node .leaf 42580 42580 (.mapped, [42581]) .leaf) 42581 42581 (.valid, []) (.node .leaf 42582 42582 (.mapped, [42583]) .leaf))) 42583 42583 (.valid, []) (.node (.node (.node .leaf 42584 42584 (.mapped, [42585]) .leaf) 42585 42585 (.valid, []) (.node .leaf 42586 42586 (.mapped, [42587]) .leaf)) 42587 42587 (.valid, []) (.node (.node .leaf 42588 42588 (.mapped, [42589]) .leaf) 42589 42589 (.valid, []) (.node .leaf 42590 42590 (.mapped, [42591]) .leaf)))) 42591 42591 (.valid, []) (.node (.node (.node (.node (.node .leaf 42592 42592 (.mapped, [42593]) .leaf) 42593 42593 (.valid, []) .leaf) 42594 42594 (.mapped, [42595]) (.node .leaf 42595 42595 (.valid, []) .leaf)) 42596 42596 (.mapped, [42597]) (.node (.node .leaf 42597 42597 (.valid, []) .leaf) 42598 42598 (.mapped, [42599]) (.node .leaf 42599 42599 (.valid, []) .leaf))) 42600 42600 (.mapped, [42601]) (.node (.node (.node .leaf 42601 42601 (.valid, []) .leaf) 42602 42602 (.mapped, [42603]) (.node .leaf 42603 42603 (.valid, []) .leaf)) 42604 42604 (.mapped, [42605]) (.node (.node .leaf 42605 42607 (.valid, []) .leaf) 42608 42611 (.valid, []) (.node .leaf 42612 42619 (.valid, []) .leaf))))) 42620 42621 (.valid, []) (.node (.node (.node (.node (.node (.node .leaf 42622 42622 (.valid, []) .leaf) 42623 42623 (.valid, []) .leaf) 42624 42624 (.mapped, [42625]) (.node .leaf 42625 42625 (.valid, []) .leaf)) 42626 42626 (.mapped, [42627]) (.node (.node .leaf 42627 42627 (.valid, []) .leaf) 42628 42628 (.mapped, [42629]) (.node .leaf 42629 42629 (.valid, []) .leaf))) 42630 42630 (.mapped, [42631]) (.node (.node (.node .leaf 42631 42631 (.valid, []) .leaf) 42632 42632 (.mapped, [42633]) (.node .leaf 42633 42633 (.valid, []) .leaf)) 42634 42634 (.mapped, [42635]) (.node (.node .leaf 42635 42635 (.valid, []) .leaf) 42636 42636 (.mapped, [42637]) (.node .leaf 42637 42637 (.valid, []) .leaf)))) 42638 42638 (.mapped, [42639]) (.node (.node (.node (.node (.node .leaf 42639 42639 (.valid, []) .leaf) 42640 42640 (.mapped, [42641]) .leaf) 42641 42641 (.valid, []) (.node .leaf 42642 42642 (.mapped, [42643]) .leaf)) 42643 42643 (.valid, []) (.node (.node .leaf 42644 42644 (.mapped, [42645]) .leaf) 42645 42645 (.valid, []) (.node .leaf 42646 42646 (.mapped, [42647]) .leaf))) 42647 42647 (.valid, []) (.node (.node (.node .leaf 42648 42648 (.mapped, [42649]) .leaf) 42649 42649 (.valid, []) (.node .leaf 42650 42650 (.mapped, [42651]) .leaf)) 42651 42651 (.valid, []) (.node (.node .leaf 42652 42652 (.mapped, [1098]) .leaf) 42653 42653 (.mapped, [1100]) (.node .leaf 42654 42654 (.valid, []) .leaf)))))) 42655 42655 (.valid, []) (.node (.node (.node (.node (.node (.node (.node .leaf 42656 42725 (.valid, []) .leaf) 42726 42735 (.valid, []) .leaf) 42736 42737 (.valid, []) (.node .leaf 42738 42743 (.valid, []) .leaf)) 42744 42751 (.disallowed, []) (.node (.node .leaf 42752 42774 (.valid, []) .leaf) 42775 42778 (.valid, []) (.node .leaf 42779 42783 (.valid, []) .leaf))) 42784 42785 (.valid, []) (.node (.node (.node .leaf 42786 42786 (.mapped, [42787]) .leaf) 42787 42787 (.valid, []) (.node .leaf 42788 42788 (.mapped, [42789]) .leaf)) 42789 42789 (.valid, []) (.node (.node .leaf 42790 42790 (.mapped, [42791]) .leaf) 42791 42791 (.valid, []) (.node .leaf 42792 42792 (.mapped, [42793]) .leaf)))) 42793 42793 (.valid, []) (.node (.node (.node (.node (.node .leaf 42794 42794 (.mapped, [42795]) .leaf) 42795 42795 (.valid, []) .leaf) 42796 42796 (.mapped, [42797]) (.node .leaf 42797 42797 (.valid, []) .leaf)) 42798 42798 (.mapped, [42799]) (.node (.node .leaf 42799 42801 (.valid, []) .leaf) 42802 42802 (.mapped, [42803]) (.node .leaf 42803 42803 (.valid, []) .leaf))) 42804 42804 (.mapped, [42805]) (.node (.node (.node .leaf 42805 42805 (.valid, []) .leaf) 42806 42806 (.mapped, [42807]) (.node .leaf 42807 42807 (.valid, []) .leaf)) 42808 42808 (.mapped, [42809]) (.node (.node .leaf 42809 42809 (.valid, []) .leaf) 42810 42810 (.mapped, [42811]) (.node .leaf 42811 42811 (.valid, []) .leaf))))) 42812 42812 (.mapped, [42813]) (.node (.node (.node (.node (.node (.node .leaf 42813 42813 (.valid, []) .leaf) 42814 42814 (.mapped, [42815]) .leaf) 42815 42815 (.valid, []) (.node .leaf 42816 42816 (.mapped, [42817]) .leaf)) 42817 42817 (.valid, []) (.node (.node .leaf 42818 42818 (.mapped, [42819]) .leaf) 42819 42819 (.valid, []) (.node .leaf 42820 42820 (.mapped, [42821]) .leaf))) 42821 42821 (.valid, []) (.node (.node (.node .leaf 42822 42822 (.mapped, [42823]) .leaf) 42823 42823 (.valid, []) (.node .leaf 42824 42824 (.mapped, [42825]) .leaf)) 42825 42825 (.valid, []) (.node (.node .leaf 42826 42826 (.mapped, [42827]) .leaf) 42827 42827 (.valid, []) (.node .leaf 42828 42828 (.mapped, [42829]) .leaf)))) 42829 42829 (.valid, []) (.node (.node (.node (.node (.node .leaf 42830 42830 (.mapped, [42831]) .leaf) 42831 42831 (.valid, []) .leaf) 42832 42832 (.mapped, [42833]) (.node .leaf 42833 42833 (.valid, []) .leaf)) 42834 42834 (.mapped, [42835]) (.node (.node .leaf 42835 42835 (.valid, []) .leaf) 42836 42836 (.mapped, [42837]) (.node .leaf 42837 42837 (.valid, []) .leaf))) 42838 42838 (.mapped, [42839]) (.node (.node (.node .leaf 42839 42839 (.valid, []) .leaf) 42840 42840 (.mapped, [42841]) (.node .leaf 42841 42841 (.valid, []) .leaf)) 42842 42842 (.mapped, [42843]) (.node (.node .leaf 42843 42843 (.valid, []) .leaf) 42844 42844 (.mapped, [42845]) (.node .leaf 42845 42845 (.valid, []) .leaf))))))))

def idnaTable15 : RTree (Status × List Nat) := (.node (.node (.node (.node (.node (.node (.node (.node (.node .leaf 42847 42847 (.valid, []) .leaf) 42848 42848 (.mapped, [42849]) .leaf) 42849 42849 (.valid, []) (.node .leaf 42850 42850 (.mapped, [42851]) .leaf)) 42851 42851 (.valid, []) (.node (.node .leaf 42852 42852 (.mapped, [42853]) .leaf) 42853 42853 (.valid, []) (.node .leaf 42854 42854 (.mapped, [42855]) .leaf))) 42855 42855 (.valid, []) (.node (.node (.node .leaf 42856 42856 (.mapped, [42857]) .leaf) 42857 42857 (.valid, []) (.node .leaf 42858 42858 (.mapped, [42859]) .leaf)) 42859 42859 (.valid, []) (.node (.node .leaf 42860 42860 (.mapped, [42861]) .leaf) 42861 42861 (.valid, []) (.node .leaf 42862 42862 (.mapped, [42863]) .leaf)))) 42863 42863 (.valid, []) (.node (.node (.node (.node (.node .leaf 42864 42864 (.mapped, [42863]) .leaf) 42865 42872 (.valid, []) .leaf) 42873 42873 (.mapped, [42874]) (.node .leaf 42874 42874 (.valid, []) .leaf)) 42875 42875 (.mapped, [42876]) (.node (.node .leaf 42876 42876 (.valid, []) .leaf) 42877 42877 (.mapped, [7545]) (.node .leaf 42878 42878 (.mapped, [42879]) .leaf))) 42879 42879 (.valid, []) (.node (.node (.node .leaf 42880 42880 (.mapped, [42881]) .leaf) 42881 42881 (.valid, []) (.node .leaf 42882 42882 (.mapped, [42883]) .leaf)) 42883 42883 (.valid, []) (.node (.node .leaf 42884 42884 (.mapped, [42885]) .leaf) 42885 42885 (.valid, []) (.node .leaf 42886 42886 (.mapped, [42887]) .leaf))))) 42887 42888 (.valid, []) (.node (.node (.node (.node (.node (.node .leaf 42889 42890 (.valid, []) .leaf) 42891 42891 (.mapped, [42892]) .leaf) 42892 42892 (.valid, []) (.node .leaf 42893 42893 (.mapped, [613]) .leaf)) 42894 42894 (.valid, []) (.node (.node .leaf 42895 42895 (.valid, []) .leaf) 42896 42896 (.mapped, [42897]) (.node .leaf 42897 42897 (.valid, []) .leaf))) 42898 42898 (.mapped, [42899]) (.node (.node (.node .leaf 42899 42899 (.valid, []) .leaf) 42900 42901 (.valid, []) (.node .leaf 42902 42902 (.mapped, [42903]) .leaf)) 42903 42903 (.valid, []) (.node (.node .leaf 42904 42904 (.mapped, [42905]) .leaf) 42905 42905 (.valid, []) (.node .leaf 42906 42906 (.mapped, [42907]) .leaf)))) 42907 42907 (.valid, []) (.node (.node (.node (.node (.node .leaf 42908 42908 (.mapped, [42909]) .leaf) 42909 42909 (.valid, []) .leaf) 42910 42910 (.mapped, [42911]) (.node .leaf 42911 42911 (.valid, []) .leaf)) 42912 42912 (.mapped, [42913]) (.node (.node .leaf 42913 42913 (.valid, []) .leaf) 42914 42914 (.mapped, [42915]) (.node .leaf 42915 42915 (.valid, []) .leaf))) 42916 42916 (.mapped, [42917]) (.node (.node (.node .leaf 42917 42917 (.valid, []) .leaf) 42918 42918 (.mapped, [42919]) (.node .leaf 42919 42919 (.valid, []) .leaf)) 42920 42920 (.mapped, [42921]) (.node (.node .leaf 42921 42921 (.valid, []) .leaf) 42922 42922 (.mapped, [614]) (.node .leaf 42923 42923 (.mapped, [604]) .leaf)))))) 42924 42924 (.mapped, [609]) (.node (.node (.node (.node (.node (.node (.node .leaf 42925 42925 (.mapped, [620]) .leaf) 42926 42926 (.mapped, [618]) .leaf) 42927 42927 (.valid, []) (.node .leaf 42928 42928 (.mapped, [670]) .leaf)) 42929 42929 (.mapped, [647]) (.node (.node .leaf 42930 42930 (.mapped, [669]) .leaf) 42931 42931 (.mapped, [43859]) (.node .leaf 42932 42932 (.mapped, [42933]) .leaf))) 42933 42933 (.valid, []) (.node (.node (.node .leaf 42934 42934 (.mapped, [42935]) .leaf) 42935 42935 (.valid, []) (.node .leaf 42936 42936 (.mapped, [42937]) .leaf)) 42937 42937 (.valid, []) (.node (.node .leaf 42938 42938 (.mapped, [42939]) .leaf) 42939 42939 (.valid, []) (.node .leaf 42940 42940 (.mapped, [42941]) .leaf)))) 42941 42941 (.valid, []) (.node (.node (.node (.node (.node .leaf 42942 42942 (.mapped, [42943]) .leaf) 42943 42943 (.valid, []) .leaf) 42944 42945 (.disallowed, []) (.node .leaf 42946 42946 (.mapped, [42947]) .leaf)) 42947 42947 (.valid, []) (.node (.node .leaf 42948 42948 (.mapped, [42900]) .leaf) 42949 42949 (.mapped, [642]) (.node .leaf 42950 42950 (.mapped, [7566]) .leaf))) 42951 42951 (.mapped, [42952]) (.node (.node (.node .leaf 42952 42952 (.valid, []) .leaf) 42953 42953 (.mapped, [42954]) (.node .leaf 42954 42954 (.valid, []) .leaf)) 42955 42996 (.disallowed, []) (.node (.node .leaf 42997 42997 (.mapped, [42998]) .leaf) 42998 42998 (.valid, []) (.node .leaf 42999 42999 (.valid, []) .leaf))))) 43000 43000 (.mapped, [295]) (.node (.node (.node (.node (.node (.node .leaf 43001 43001 (.mapped, [339]) .leaf) 43002 43002 (.valid, []) .leaf) 43003 43007 (.valid, []) (.node .leaf 43008 43047 (.valid, []) .leaf)) 43048 43051 (.valid, []) (.node (.node .leaf 43052 43052 (.valid, []) .leaf) 43053 43055 (.disallowed, []) (.node .leaf 43056 43065 (.valid, []) .leaf))) 43066 43071 (.disallowed, []) (.node (.node (.node .leaf 43072 43123 (.valid, []) .leaf) 43124 43127 (.valid, []) (.node .leaf 43128 43135 (.disallowed, []) .leaf)) 43136 43204 (.valid, []) (.node (.node .leaf 43205 43205 (.valid, []) .leaf) 43206 43213 (.disallowed, []) (.node .leaf 43214 43215 (.valid, []) .leaf)))) 43216 43225 (.valid, []) (.node (.node (.node (.node (.node .leaf 43226 43231 (.disallowed, []) .leaf) 43232 43255 (.valid, []) .leaf) 43256 43258 (.valid, []) (.node .leaf 43259 43259 (.valid, []) .leaf)) 43260 43260 (.valid, []) (.node (.node .leaf 43261 43261 (.valid, []) .leaf) 43262 43263 (.valid, []) (.node .leaf 43264 43309 (.valid, []) .leaf))) 43310 43311 (.valid, []) (.node (.node (.node .leaf 43312 43347 (.valid, []) .leaf) 43348 43358 (.disallowed, []) (.node .leaf 43359 43359 (.valid, []) .leaf)) 43360 43388 (.valid, []) (.node (.node .leaf 43389 43391 (.disallowed, []) .leaf) 43392 43456 (.valid, []) (.node .leaf 43457 43469 (.valid, []) .leaf))))))) 43470 43470 (.disallowed, []) (.node (.node (.node (.node (.node (.node (.node (.node .leaf 43471 43481 (.valid, []) .leaf) 43482 43485 (.disallowed, []) .leaf) 43486 43487 (.valid, []) (.node .leaf 43488 43518 (.valid, []) .leaf)) 43519 43519 (.disallowed, []) (.node (.node .leaf 43520 43574 (.valid, []) .leaf) 43575 43583 (.disallowed, []) (.node .leaf 43584 43597 (.valid, []) .leaf))) 43598 43599 (.disallowed, []) (.node (.node (.node .leaf 43600 43609 (.valid, []) .leaf) 43610 43611 (.disallowed, []) (.node .leaf 43612 43615 (.valid, []) .leaf)) 43616 43638 (.valid, []) (.node (.node .leaf 43639 43641 (.valid, []) .leaf) 43642 43643 (.valid, []) (.node .leaf 43644 43647 (.valid, []) .leaf)))) 43648 43714 (.valid, []) (.node (.node (.node (.node (.node .leaf 43715 43738 (.disallowed, []) .leaf) 43739 43741 (.valid, []) .leaf) 43742 43743 (.valid, []) (.node .leaf 43744 43759 (.valid, []) .leaf)) 43760 43761 (.valid, []) (.node (.node .leaf 43762 43766 (.valid, []) .leaf) 43767 43776 (.disallowed, []) (.node .leaf 43777 43782 (.valid, []) .leaf))) 43783 43784 (.disallowed, []) (.node (.node (.node .leaf 43785 43790 (.valid, []) .leaf) 43791 43792 (.disallowed, []) (.node .leaf 43793 43798 (.valid, []) .leaf)) 43799 43807 (.disallowed, []) (.node (.node .leaf 43808 43814 (.valid, []) .leaf) 43815 43815 (.disallowed, []) (.node .leaf 43816 43822 (.valid, []) .leaf))))) 43823 43823 (.disallowed, []) (.node (.node (.node (.node (.node (.node .leaf 43824 43866 (.valid, []) .leaf) 43867 43867 (.valid, []) .leaf) 43868 43868 (.mapped, [42791]) (.node .leaf 43869 43869 (.mapped, [43831]) .leaf)) 43870 43870 (.mapped, [619]) (.node (.node .leaf 43871 43871 (.mapped, [43858]) .leaf) 43872 43875 (.valid, []) (.node .leaf 43876 43877 (.valid, []) .leaf))) 43878 43879 (.valid, []) (.node (.node (.node .leaf 43880 43880 (.valid, []) .leaf) 43881 43881 (.mapped, [653]) (.node .leaf 43882 43883 (.valid, []) .leaf)) 43884 43887 (.disallowed, []) (.node (.node .leaf 43888 43888 (.mapped, [5024]) .leaf) 43889 43889 (.mapped, [5025]) (.node .leaf 43890 43890 (.mapped, [5026]) .leaf)))) 43891 43891 (.mapped, [5027]) (.node (.node (.node (.node (.node .leaf 43892 43892 (.mapped, [5028]) .leaf) 43893 43893 (.mapped, [5029]) .leaf) 43894 43894 (.mapped, [5030]) (.node .leaf 43895 43895 (.mapped, [5031]) .leaf)) 43896 43896 (.mapped, [5032]) (.node (.node .leaf 43897 43897 (.mapped, [5033]) .leaf) 43898 43898 (.mapped, [5034]) (.node .leaf 43899 43899 (.mapped, [5035]) .leaf))) 43900 43900 (.mapped, [5036]) (.node (.node (.node .leaf 43901 43901 (.mapped, [5037]) .leaf) 43902 43902 (.mapped, [5038]) (.node .leaf 43903 43903 (.mapped, [5039]) .leaf)) 43904 43904 (.mapped, [5040]) (.node (.node .leaf 43905 43905 (.mapped, [5041]) .leaf) 43906 43906 (.mapped, [5042]) (.node .leaf 43907 43907 (.mapped, [5043]) .leaf)))))) 43908 43908 (.mapped, [5044]) (.node (.node (.node (.node (.node (.node (.node .leaf 43909 43909 (.mapped, [5045]) .leaf) 43910 43910 (.mapped, [5046]) .leaf) 43911 43911 (.mapped, [5047]) (.node .leaf 43912 43912 (.mapped, [5048]) .leaf)) 43913 43913 (.mapped, [5049]) (.node (.node .leaf 43914 43914 (.mapped, [5050]) .leaf) 43915 43915 (.mapped, [5051]) (.node .leaf 43916 43916 (.mapped, [5052]) .leaf))) 43917 43917 (.mapped, [5053]) (.node (.node (.node .leaf 43918 43918 (.mapped, [5054]) .leaf) 43919 43919 (.mapped, [5055]) (.node .leaf 43920 43920 (.mapped, [5056]) .leaf)) 43921 43921 (.mapped, [5057]) (.node (.node .leaf 43922 43922 (.mapped, [5058]) .leaf) 43923 43923 (.mapped, [5059]) (.node .leaf 43924 43924 (.mapped, [5060]) .leaf)))) 43925 43925 (.mapped, [5061]) (.node (.node (.node (.node (.node .leaf 43926 43926 (.mapped, [5062]) .leaf) 43927 43927 (.mapped, [5063]) .leaf) 43928 43928 (.mapped, [5064]) (.node .leaf 43929 43929 (.mapped, [5065]) .leaf)) 43930 43930 (.mapped, [5066]) (.node (.node .leaf 43931 43931 (.mapped, [5067]) .leaf) 43932 43932 (.mapped, [5068]) (.node .leaf 43933 43933 (.mapped, [5069]) .leaf))) 43934 43934 (.mapped, [5070]) (.node (.node (.node .leaf 43935 43935 (.mapped, [5071]) .leaf) 43936 43936 (.mapped, [5072]) (.node .leaf 43937 43937 (.mapped, [5073]) .leaf)) 43938 43938 (.mapped, [5074]) (.node (.node .leaf 43939 43939 (.mapped, [5075]) .leaf) 43940 43940 (.mapped, [5076]) (.node .leaf 43941 43941 (.mapped, [5077]) .leaf))))) 43942 43942 (.mapped, [5078]) (.node (.node (.node (.node (.node (.node .leaf 43943 43943 (.mapped, [5079]) .leaf) 43944 43944 (.mapped, [5080]) .leaf) 43945 43945 (.mapped, [5081]) (.node .leaf 43946 43946 (.mapped, [5082]) .leaf)) 43947 43947 (.mapped, [5083]) (.node (.node .leaf 43948 43948 (.mapped, [5084]) .leaf) 43949 43949 (.mapped, [5085]) (.node .leaf 43950 43950 (.mapped, [5086]) .leaf))) 43951 43951 (.mapped, [5087]) (.node (.node (.node .leaf 43952 43952 (.mapped, [5088]) .leaf) 43953 43953 (.mapped, [5089]) (.node .leaf 43954 43954 (.mapped, [5090]) .leaf)) 43955 43955 (.mapped, [5091]) (.node (.node .leaf 43956 43956 (.mapped, [5092]) .leaf) 43957 43957 (.mapped, [5093]) (.node .leaf 43958 43958 (.mapped, [5094]) .leaf)))) 43959 43959 (.mapped, [5095]) (.node (.node (.node (.node (.node .leaf 43960 43960 (.mapped, [5096]) .leaf) 43961 43961 (.mapped, [5097]) .leaf) 43962 43962 (.mapped, [5098]) (.node .leaf 43963 43963 (.mapped, [5099]) .leaf)) 43964 43964 (.mapped, [5100]) (.node (.node .leaf 43965 43965 (.mapped, [5101]) .leaf) 43966 43966 (.mapped, [5102]) (.node .leaf 43967 43967 (.mapped, [5103]) .leaf))) 43968 44010 (.valid, []) (.node (.node (.node .leaf 44011 44011 (.valid, []) .leaf) 44012 44013 (.valid, []) (.node .leaf 44014 44015 (.disallowed, []) .leaf)) 44016 44025 (.valid, []) (.node (.node .leaf 44026 44031 (.disallowed, []) .leaf) 44032 55203 (.valid, []) (.node .leaf 55204 55215 (.disallowed, []) .leaf))))))))

def idnaTable16 : RTree (Status × List Nat) := (.node (.node (.node (.node (.node (.node (.node (.node (.node .leaf 55239 55242 (.disallowed, []) .leaf) 55243 55291 (.valid, []) .leaf) 55292 55295 (.disallowed, []) (.node .leaf 55296 57343 (.disallowed, []) .leaf)) 57344 63743 (.disallowed, []) (.node (.node .leaf 63744 63744 (.mapped, [35912]) .leaf) 63745 63745 (.mapped, [26356]) (.node .leaf 63746 63746 (.mapped, [36554]) .leaf))) 63747 63747 (.mapped, [36040]) (.node (.node (.node (.node .leaf 63748 63748 (.mapped, [28369]) .leaf) 63749 63749 (.mapped, [20018]) .leaf) 63750 63750 (.mapped, [21477]) (.node .leaf 63751 63752 (.mapped, [40860]) .leaf)) 63753 63753 (.mapped, [22865]) (.node (.node .leaf 63754 63754 (.mapped, [37329]) .leaf) 63755 63755 (.mapped, [21895]) (.node .leaf 63756 63756 (.mapped, [22856]) .leaf)))) 63757 63757 (.mapped, [25078]) (.node (.node (.node (.node (.node .leaf 63758 63758 (.mapped, [30313]) .leaf) 63759 63759 (.mapped, [32645]) .leaf) 63760 63760 (.mapped, [34367]) (.node .leaf 63761 63761 (.mapped, [34746]) .leaf)) 63762 63762 (.mapped, [35064]) (.node (.node .leaf 63763 63763 (.mapped, [37007]) .leaf) 63764 63764 (.mapped, [27138]) (.node .leaf 63765 63765 (.mapped, [27931]) .leaf))) 63766 63766 (.mapped, [28889]) (.node (.node (.node .leaf 63767 63767 (.mapped, [29662]) .leaf) 63768 63768 (.mapped, [33853]) (.node .leaf 63769 63769 (.mapped, [37226]) .leaf)) 63770 63770 (.mapped, [39409]) (.node (.node .leaf 63771 63771 (.mapped, [20098]) .leaf) 63772 63772 (.mapped, [21365]) (.node .leaf 63773 63773 (.mapped, [27396]) .leaf))))) 63774 63774 (.mapped, [29211]) (.node (.node (.node (.node (.node (.node .leaf 63775 63775 (.mapped, [34349]) .leaf) 63776 63776 (.mapped, [40478]) .leaf) 63777 63777 (.mapped, [23888]) (.node .leaf 63778 63778 (.mapped, [28651]) .leaf)) 63779 63779 (.mapped, [34253]) (.node (.node .leaf 63780 63780 (.mapped, [35172]) .leaf) 63781 63781 (.mapped, [25289]) (.node .leaf 63782 63782 (.mapped, [33240]) .leaf))) 63783 63783 (.mapped, [34847]) (.node (.node (.node .leaf 63784 63784 (.mapped, [24266]) .leaf) 63785 63785 (.mapped, [26391]) (.node .leaf 63786 63786 (.mapped, [28010]) .leaf)) 63787 63787 (.mapped, [29436]) (.node (.node .leaf 63788 63788 (.mapped, [37070]) .leaf) 63789 63789 (.mapped, [20358]) (.node .leaf 63790 63790 (.mapped, [20919]) .leaf)))) 63791 63791 (.mapped, [21214]) (.node (.node (.node (.node (.node .leaf 63792 63792 (.mapped, [25796]) .leaf) 63793 63793 (.mapped, [27347]) .leaf) 63794 63794 (.mapped, [29200]) (.node .leaf 63795 63795 (.mapped, [30439]) .leaf)) 63796 63796 (.mapped, [32769]) (.node (.node .leaf 63797 63797 (.mapped, [34310]) .leaf) 63798 63798 (.mapped, [34396]) (.node .leaf 63799 63799 (.mapped, [36335]) .leaf))) 63800 63800 (.mapped, [38706]) (.node (.node (.node .leaf 63801 63801 (.mapped, [39791]) .leaf) 63802 63802 (.mapped, [40442]) (.node .leaf 63803 63803 (.mapped, [30860]) .leaf)) 63804 63804 (.mapped, [31103]) (.node (.node .leaf 63805 63805 (.mapped, [32160]) .leaf) 63806 63806 (.mapped, [33737]) (.node .leaf 63807 63807 (.mapped, [37636]) .leaf)))))) 63808 63808 (.mapped, [40575]) (.node (.node (.node (.node (.node (.node (.node .leaf 63809 63809 (.mapped, [35542]) .leaf) 63810 63810 (.mapped, [22751]) .leaf) 63811 63811 (.mapped, [24324]) (.node .leaf 63812 63812 (.mapped, [31840]) .leaf)) 63813 63813 (.mapped, [32894]) (.node (.node .leaf 63814 63814 (.mapped, [29282]) .leaf) 63815 63815 (.mapped, [30922]) (.node .leaf 63816 63816 (.mapped, [36034]) .leaf))) 63817 63817 (.mapped, [38647]) (.node (.node (.node .leaf 63818 63818 (.mapped, [22744]) .leaf) 63819 63819 (.mapped, [23650]) (.node .leaf 63820 63820 (.mapped, [27155]) .leaf)) 63821 63821 (.mapped, [28122]) (.node (.node .leaf 63822 63822 (.mapped, [28431]) .leaf) 63823 63823 (.mapped, [32047]) (.node .leaf 63824 63824 (.mapped, [32311]) .leaf)))) 63825 63825 (.mapped, [38475]) (.node (.node (.node (.node (.node .leaf 63826 63826 (.mapped, [21202]) .leaf) 63827 63827 (.mapped, [32907]) .leaf) 63828 63828 (.mapped, [20956]) (.node .leaf 63829 63829 (.mapped, [20940]) .leaf)) 63830 63830 (.mapped, [31260]) (.node (.node .leaf 63831 63831 (.mapped, [32190]) .leaf) 63832 63832 (.mapped, [33777]) (.node .leaf 63833 63833 (.mapped, [38517]) .leaf))) 63834 63834 (.mapped, [35712]) (.node (.node (.node .leaf 63835 63835 (.mapped, [25295]) .leaf) 63836 63836 (.mapped, [27138]) (.node .leaf 63837 63837 (.mapped, [35582]) .leaf)) 63838 63838 (.mapped, [20025]) (.node (.node .leaf 63839 63839 (.mapped, [23527]) .leaf) 63840 63840 (.mapped, [24594]) (.node .leaf 63841 63841 (.mapped, [29575]) .leaf))))) 63842 63842 (.mapped, [30064]) (.node (.node (.node (.node (.node (.node .leaf 63843 63843 (.mapped, [21271]) .leaf) 63844 63844 (.mapped, [30971]) .leaf) 63845 63845 (.mapped, [20415]) (.node .leaf 63846 63846 (.mapped, [24489]) .leaf)) 63847 63847 (.mapped, [19981]) (.node (.node .leaf 63848 63848 (.mapped, [27852]) .leaf) 63849 63849 (.mapped, [25976]) (.node .leaf 63850 63850 (.mapped, [32034]) .leaf))) 63851 63851 (.mapped, [21443]) (.node (.node (.node .leaf 63852 63852 (.mapped, [22622]) .leaf) 63853 63853 (.mapped, [30465]) (.node .leaf 63854 63854 (.mapped, [33865]) .leaf)) 63855 63855 (.mapped, [35498]) (.node (.node .leaf 63856 63856 (.mapped, [27578]) .leaf) 63857 63857 (.mapped, [36784]) (.node .leaf 63858 63858 (.mapped, [27784]) .leaf)))) 63859 63859 (.mapped, [25342]) (.node (.node (.node (.node (.node .leaf 63860 63860 (.mapped, [33509]) .leaf) 63861 63861 (.mapped, [25504]) .leaf) 63862 63862 (.mapped, [30053]) (.node .leaf 63863 63863 (.mapped, [20142]) .leaf)) 63864 63864 (.mapped, [20841]) (.node (.node .leaf 63865 63865 (.mapped, [20937]) .leaf) 63866 63866 (.mapped, [26753]) (.node .leaf 63867 63867 (.mapped, [31975]) .leaf))) 63868 63868 (.mapped, [33391]) (.node (.node (.node .leaf 63869 63869 (.mapped, [35538]) .leaf) 63870 63870 (.mapped, [37327]) (.node .leaf 63871 63871 (.mapped, [21237]) .leaf)) 63872 63872 (.mapped, [21570]) (.node (.node .leaf 63873 63873 (.mapped, [22899]) .leaf) 63874 63874 (.mapped, [24300]) (.node .leaf 63875 63875 (.mapped, [26053]) .leaf))))))) 63876 63876 (.mapped, [28670]) (.node (.node (.node (.node (.node (.node (.node (.node .leaf 63877 63877 (.mapped, [31018]) .leaf) 63878 63878 (.mapped, [38317]) .leaf) 63879 63879 (.mapped, [39530]) (.node .leaf 63880 63880 (.mapped, [40599]) .leaf)) 63881 63881 (.mapped, [40654]) (.node (.node .leaf 63882 63882 (.mapped, [21147]) .leaf) 63883 63883 (.mapped, [26310]) (.node .leaf 63884 63884 (.mapped, [27511]) .leaf))) 63885 63885 (.mapped, [36706]) (.node (.node (.node .leaf 63886 63886 (.mapped, [24180]) .leaf) 63887 63887 (.mapped, [24976]) (.node .leaf 63888 63888 (.mapped, [25088]) .leaf)) 63889 63889 (.mapped, [25754]) (.node (.node .leaf 63890 63890 (.mapped, [28451]) .leaf) 63891 63891 (.mapped, [29001]) (.node .leaf 63892 63892 (.mapped, [29833]) .leaf)))) 63893 63893 (.mapped, [31178]) (.node (.node (.node (.node (.node .leaf 63894 63894 (.mapped, [32244]) .leaf) 63895 63895 (.mapped, [32879]) .leaf) 63896 63896 (.mapped, [36646]) (.node .leaf 63897 63897 (.mapped, [34030]) .leaf)) 63898 63898 (.mapped, [36899]) (.node (.node .leaf 63899 63899 (.mapped, [37706]) .leaf) 63900 63900 (.mapped, [21015]) (.node .leaf 63901 63901 (.mapped, [21155]) .leaf))) 63902 63902 (.mapped, [21693]) (.node (.node (.node .leaf 63903 63903 (.mapped, [28872]) .leaf) 63904 63904 (.mapped, [35010]) (.node .leaf 63905 63905 (.mapped, [35498]) .leaf)) 63906 63906 (.mapped, [24265]) (.node (.node .leaf 63907 63907 (.mapped, [24565]) .leaf) 63908 63908 (.mapped, [25467]) (.node .leaf 63909 63909 (.mapped, [27566]) .leaf))))) 63910 63910 (.mapped, [31806]) (.node (.node (.node (.node (.node (.node .leaf 63911 63911 (.mapped, [29557]) .leaf) 63912 63912 (.mapped, [20196]) .leaf) 63913 63913 (.mapped, [22265]) (.node .leaf 63914 63914 (.mapped, [23527]) .leaf)) 63915 63915 (.mapped, [23994]) (.node (.node .leaf 63916 63916 (.mapped, [24604]) .leaf) 63917 63917 (.mapped, [29618]) (.node .leaf 63918 63918 (.mapped, [29801]) .leaf))) 63919 63919 (.mapped, [32666]) (.node (.node (.node .leaf 63920 63920 (.mapped, [32838]) .leaf) 63921 63921 (.mapped, [37428]) (.node .leaf 63922 63922 (.mapped, [38646]) .leaf)) 63923 63923 (.mapped, [38728]) (.node (.node .leaf 63924 63924 (.mapped, [38936]) .leaf) 63925 63925 (.mapped, [20363]) (.node .leaf 63926 63926 (.mapped, [31150]) .leaf)))) 63927 63927 (.mapped, [37300]) (.node (.node (.node (.node (.node .leaf 63928 63928 (.mapped, [38584]) .leaf) 63929 63929 (.mapped, [24801]) .leaf) 63930 63930 (.mapped, [20102]) (.node .leaf 63931 63931 (.mapped, [20698]) .leaf)) 63932 63932 (.mapped, [23534]) (.node (.node .leaf 63933 63933 (.mapped, [23615]) .leaf) 63934 63934 (.mapped, [26009]) (.node .leaf 63935 63935 (.mapped, [27138]) .leaf))) 63936 63936 (.mapped, [29134]) (.node (.node (.node .leaf 63937 63937 (.mapped, [30274]) .leaf) 63938 63938 (.mapped, [34044]) (.node .leaf 63939 63939 (.mapped, [36988]) .leaf)) 63940 63940 (.mapped, [40845]) (.node (.node .leaf 63941 63941 (.mapped, [26248]) .leaf) 63942 63942 (.mapped, [38446]) (.node .leaf 63943 63943 (.mapped, [21129]) .leaf)))))) 63944 63944 (.mapped, [26491]) (.node (.node (.node (.node (.node (.node (.node .leaf 63945 63945 (.mapped, [26611]) .leaf) 63946 63946 (.mapped, [27969]) .leaf) 63947 63947 (.mapped, [28316]) (.node .leaf 63948 63948 (.mapped, [29705]) .leaf)) 63949 63949 (.mapped, [30041]) (.node (.node .leaf 63950 63950 (.mapped, [30827]) .leaf) 63951 63951 (.mapped, [32016]) (.node .leaf 63952 63952 (.mapped, [39006]) .leaf))) 63953 63953 (.mapped, [20845]) (.node (.node (.node .leaf 63954 63954 (.mapped, [25134]) .leaf) 63955 63955 (.mapped, [38520]) (.node .leaf 63956 63956 (.mapped, [20523]) .leaf)) 63957 63957 (.mapped, [23833]) (.node (.node .leaf 63958 63958 (.mapped, [28138]) .leaf) 63959 63959 (.mapped, [36650]) (.node .leaf 63960 63960 (.mapped, [24459]) .leaf)))) 63961 63961 (.mapped, [24900]) (.node (.node (.node (.node (.node .leaf 63962 63962 (.mapped, [26647]) .leaf) 63963 63963 (.mapped, [29575]) .leaf) 63964 63964 (.mapped, [38534]) (.node .leaf 63965 63965 (.mapped, [21033]) .leaf)) 63966 63966 (.mapped, [21519]) (.node (.node .leaf 63967 63967 (.mapped, [23653]) .leaf) 63968 63968 (.mapped, [26131]) (.node .leaf 63969 63969 (.mapped, [26446]) .leaf))) 63970 63970 (.mapped, [26792]) (.node (.node (.node .leaf 63971 63971 (.mapped, [27877]) .leaf) 63972 63972 (.mapped, [29702]) (.node .leaf 63973 63973 (.mapped, [30178]) .leaf)) 63974 63974 (.mapped, [32633]) (.node (.node .leaf 63975 63975 (.mapped, [35023]) .leaf) 63976 63976 (.mapped, [35041]) (.node .leaf 63977 63977 (.mapped, [37324]) .leaf))))) 63978 63978 (.mapped, [38626]) (.node (.node (.node (.node (.node (.node .leaf 63979 63979 (.mapped, [21311]) .leaf) 63980 63980 (.mapped, [28346]) .leaf) 63981 63981 (.mapped, [21533]) (.node .leaf 63982 63982 (.mapped, [29136]) .leaf)) 63983 63983 (.mapped, [29848]) (.node (.node .leaf 63984 63984 (.mapped, [34298]) .leaf) 63985 63985 (.mapped, [38563]) (.node .leaf 63986 63986 (.mapped, [40023]) .leaf))) 63987 63987 (.mapped, [40607]) (.node (.node (.node .leaf 63988 63988 (.mapped, [26519]) .leaf) 63989 63989 (.mapped, [28107]) (.node .leaf 63990 63990 (.mapped, [33256]) .leaf)) 63991 63991 (.mapped, [31435]) (.node (.node .leaf 63992 63992 (.mapped, [31520]) .leaf) 63993 63993 (.mapped, [31890]) (.node .leaf 63994 63994 (.mapped, [29376]) .leaf)))) 63995 63995 (.mapped, [28825]) (.node (.node (.node (.node (.node .leaf 63996 63996 (.mapped, [35672]) .leaf) 63997 63997 (.mapped, [20160]) .leaf) 63998 63998 (.mapped, [33590]) (.node .leaf 63999 63999 (.mapped, [21050]) .leaf)) 64000 64000 (.mapped, [20999]) (.node (.node .leaf 64001 64001 (.mapped, [24230]) .leaf) 64002 64002 (.mapped, [25299]) (.node .leaf 64003 64003 (.mapped, [31958]) .leaf))) 64004 64004 (.mapped, [23429]) (.node (.node (.node .leaf 64005 64005 (.mapped, [27934]) .leaf) 64006 64006 (.mapped, [26292]) (.node .leaf 64007 64007 (.mapped, [36667]) .leaf)) 64008 64008 (.mapped, [34892]) (.node (.node .leaf 64009 64009 (.mapped, [38477]) .leaf) 64010 64010 (.mapped, [35211]) (.node .leaf 64011 64011 (.mapped, [24275]) .leaf))))))))

def idnaTable17 : RTree (Status × List Nat) := (.node (.node (.node (.node (.node (.node (.node (.node (.node .leaf 64013 64013 (.mapped, [21952]) .leaf) 64014 64015 (.valid, []) .leaf) 64016 64016 (.mapped, [22618]) (.node .leaf 64017 64017 (.valid, []) .leaf)) 64018 64018 (.mapped, [26228]) (.node (.node .leaf 64019 64020 (.valid, []) .leaf) 64021 64021 (.mapped, [20958]) (.node .leaf 64022 64022 (.mapped, [29482]) .leaf))) 64023 64023 (.mapped, [30410]) (.node (.node (.node .leaf 64024 64024 (.mapped, [31036]) .leaf) 64025 64025 (.mapped, [31070]) (.node .leaf 64026 64026 (.mapped, [31077]) .leaf)) 64027 64027 (.mapped, [31119]) (.node (.node .leaf 64028 64028 (.mapped, [38742]) .leaf) 64029 64029 (.mapped, [31934]) (.node .leaf 64030 64030 (.mapped, [32701]) .leaf)))) 64031 64031 (.valid, []) (.node (.node (.node (.node (.node .leaf 64032 64032 (.mapped, [34322]) .leaf) 64033 64033 (.valid, []) .leaf) 64034 64034 (.mapped, [35576]) (.node .leaf 64035 64036 (.valid, []) .leaf)) 64037 64037 (.mapped, [36920]) (.node (.node .leaf 64038 64038 (.mapped, [37117]) .leaf) 64039 64041 (.valid, []) (.node .leaf 64042 64042 (.mapped, [39151]) .leaf))) 64043 64043 (.mapped, [39164]) (.node (.node (.node .leaf 64044 64044 (.mapped, [39208]) .leaf) 64045 64045 (.mapped, [40372]) (.node .leaf 64046 64046 (.mapped, [37086]) .leaf)) 64047 64047 (.mapped, [38583]) (.node (.node .leaf 64048 64048 (.mapped, [20398]) .leaf) 64049 64049 (.mapped, [20711]) (.node .leaf 64050 64050 (.mapped, [20813]) .leaf))))) 64051 64051 (.mapped, [21193]) (.node (.node (.node (.node (.node (.node .leaf 64052 64052 (.mapped, [21220]) .leaf) 64053 64053 (.mapped, [21329]) .leaf) 64054 64054 (.mapped, [21917]) (.node .leaf 64055 64055 (.mapped, [22022]) .leaf)) 64056 64056 (.mapped, [22120]) (.node (.node .leaf 64057 64057 (.mapped, [22592]) .leaf) 64058 64058 (.mapped, [22696]) (.node .leaf 64059 64059 (.mapped, [23652]) .leaf))) 64060 64060 (.mapped, [23662]) (.node (.node (.node .leaf 64061 64061 (.mapped, [24724]) .leaf) 64062 64062 (.mapped, [24936]) (.node .leaf 64063 64063 (.mapped, [24974]) .leaf)) 64064 64064 (.mapped, [25074]) (.node (.node .leaf 64065 64065 (.mapped, [25935]) .leaf) 64066 64066 (.mapped, [26082]) (.node .leaf 64067 64067 (.mapped, [26257]) .leaf)))) 64068 64068 (.mapped, [26757]) (.node (.node (.node (.node (.node .leaf 64069 64069 (.mapped, [28023]) .leaf) 64070 64070 (.mapped, [28186]) .leaf) 64071 64071 (.mapped, [28450]) (.node .leaf 64072 64072 (.mapped, [29038]) .leaf)) 64073 64073 (.mapped, [29227]) (.node (.node .leaf 64074 64074 (.mapped, [29730]) .leaf) 64075 64075 (.mapped, [30865]) (.node .leaf 64076 64076 (.mapped, [31038]) .leaf))) 64077 64077 (.mapped, [31049]) (.node (.node (.node .leaf 64078 64078 (.mapped, [31048]) .leaf) 64079 64079 (.mapped, [31056]) (.node .leaf 64080 64080 (.mapped, [31062]) .leaf)) 64081 64081 (.mapped, [31069]) (.node (.node .leaf 64082 64082 (.mapped, [31117]) .leaf) 64083 64083 (.mapped, [31118]) (.node .leaf 64084 64084 (.mapped, [31296]) .leaf)))))) 64085 64085 (.mapped, [31361]) (.node (.node (.node (.node (.node (.node (.node .leaf 64086 64086 (.mapped, [31680]) .leaf) 64087 64087 (.mapped, [32244]) .leaf) 64088 64088 (.mapped, [32265]) (.node .leaf 64089 64089 (.mapped, [32321]) .leaf)) 64090 64090 (.mapped, [32626]) (.node (.node .leaf 64091 64091 (.mapped, [32773]) .leaf) 64092 64092 (.mapped, [33261]) (.node .leaf 64093 64094 (.mapped, [33401]) .leaf))) 64095 64095 (.mapped, [33879]) (.node (.node (.node .leaf 64096 64096 (.mapped, [35088]) .leaf) 64097 64097 (.mapped, [35222]) (.node .leaf 64098 64098 (.mapped, [35585]) .leaf)) 64099 64099 (.mapped, [35641]) (.node (.node .leaf 64100 64100 (.mapped, [36051]) .leaf) 64101 64101 (.mapped, [36104]) (.node .leaf 64102 64102 (.mapped, [36790]) .leaf)))) 64103 64103 (.mapped, [36920]) (.node (.node (.node (.node (.node .leaf 64104 64104 (.mapped, [38627]) .leaf) 64105 64105 (.mapped, [38911]) .leaf) 64106 64106 (.mapped, [38971]) (.node .leaf 64107 64107 (.mapped, [24693]) .leaf)) 64108 64108 (.mapped, [148206]) (.node (.node .leaf 64109 64109 (.mapped, [33304]) .leaf) 64110 64111 (.disallowed, []) (.node .leaf 64112 64112 (.mapped, [20006]) .leaf))) 64113 64113 (.mapped, [20917]) (.node (.node (.node .leaf 64114 64114 (.mapped, [20840]) .leaf) 64115 64115 (.mapped, [20352]) (.node .leaf 64116 64116 (.mapped, [20805]) .leaf)) 64117 64117 (.mapped, [20864]) (.node (.node .leaf 64118 64118 (.mapped, [21191]) .leaf) 64119 64119 (.mapped, [21242]) (.node .leaf 64120 64120 (.mapped, [21917]) .leaf))))) 64121 64121 (.mapped, [21845]) (.node (.node (.node (.node (.node (.node .leaf 64122 64122 (.mapped, [21913]) .leaf) 64123 64123 (.mapped, [21986]) .leaf) 64124 64124 (.mapped, [22618]) (.node .leaf 64125 64125 (.mapped, [22707]) .leaf)) 64126 64126 (.mapped, [22852]) (.node (.node .leaf 64127 64127 (.mapped, [22868]) .leaf) 64128 64128 (.mapped, [23138]) (.node .leaf 64129 64129 (.mapped, [23336]) .leaf))) 64130 64130 (.mapped, [24274]) (.node (.node (.node .leaf 64131 64131 (.mapped, [24281]) .leaf) 64132 64132 (.mapped, [24425]) (.node .leaf 64133 64133 (.mapped, [24493]) .leaf)) 64134 64134 (.mapped, [24792]) (.node (.node .leaf 64135 64135 (.mapped, [24910]) .leaf) 64136 64136 (.mapped, [24840]) (.node .leaf 64137 64137 (.mapped, [24974]) .leaf)))) 64138 64138 (.mapped, [24928]) (.node (.node (.node (.node (.node .leaf 64139 64139 (.mapped, [25074]) .leaf) 64140 64140 (.mapped, [25140]) .leaf) 64141 64141 (.mapped, [25540]) (.node .leaf 64142 64142 (.mapped, [25628]) .leaf)) 64143 64143 (.mapped, [25682]) (.node (.node .leaf 64144 64144 (.mapped, [25942]) .leaf) 64145 64145 (.mapped, [26228]) (.node .leaf 64146 64146 (.mapped, [26391]) .leaf))) 64147 64147 (.mapped, [26395]) (.node (.node (.node .leaf 64148 64148 (.mapped, [26454]) .leaf) 64149 64149 (.mapped, [27513]) (.node .leaf 64150 64150 (.mapped, [27578]) .leaf)) 64151 64151 (.mapped, [27969]) (.node (.node .leaf 64152 64152 (.mapped, [28379]) .leaf) 64153 64153 (.mapped, [28363]) (.node .leaf 64154 64154 (.mapped, [28450]) .leaf))))))) 64155 64155 (.mapped, [28702]) (.node (.node (.node (.node (.node (.node (.node (.node .leaf 64156 64156 (.mapped, [29038]) .leaf) 64157 64157 (.mapped, [30631]) .leaf) 64158 64158 (.mapped, [29237]) (.node .leaf 64159 64159 (.mapped, [29359]) .leaf)) 64160 64160 (.mapped, [29482]) (.node (.node .leaf 64161 64161 (.mapped, [29809]) .leaf) 64162 64162 (.mapped, [29958]) (.node .leaf 64163 64163 (.mapped, [30011]) .leaf))) 64164 64164 (.mapped, [30237]) (.node (.node (.node .leaf 64165 64165 (.mapped, [30239]) .leaf) 64166 64166 (.mapped, [30410]) (.node .leaf 64167 64167 (.mapped, [30427]) .leaf)) 64168 64168 (.mapped, [30452]) (.node (.node .leaf 64169 64169 (.mapped, [30538]) .leaf) 64170 64170 (.mapped, [30528]) (.node .leaf 64171 64171 (.mapped, [30924]) .leaf)))) 64172 64172 (.mapped, [31409]) (.node (.node (.node (.node (.node .leaf 64173 64173 (.mapped, [31680]) .leaf) 64174 64174 (.mapped, [31867]) .leaf) 64175 64175 (.mapped, [32091]) (.node .leaf 64176 64176 (.mapped, [32244]) .leaf)) 64177 64177 (.mapped, [32574]) (.node (.node .leaf 64178 64178 (.mapped, [32773]) .leaf) 64179 64179 (.mapped, [33618]) (.node .leaf 64180 64180 (.mapped, [33775]) .leaf))) 64181 64181 (.mapped, [34681]) (.node (.node (.node .leaf 64182 64182 (.mapped, [35137]) .leaf) 64183 64183 (.mapped, [35206]) (.node .leaf 64184 64184 (.mapped, [35222]) .leaf)) 64185 64185 (.mapped, [35519]) (.node (.node .leaf 64186 64186 (.mapped, [35576]) .leaf) 64187 64187 (.mapped, [35531]) (.node .leaf 64188 64188 (.mapped, [35585]) .leaf))))) 64189 64189 (.mapped, [35582]) (.node (.node (.node (.node (.node (.node .leaf 64190 64190 (.mapped, [35565]) .leaf) 64191 64191 (.mapped, [35641]) .leaf) 64192 64192 (.mapped, [35722]) (.node .leaf 64193 64193 (.mapped, [36104]) .leaf)) 64194 64194 (.mapped, [36664]) (.node (.node .leaf 64195 64195 (.mapped, [36978]) .leaf) 64196 64196 (.mapped, [37273]) (.node .leaf 64197 64197 (.mapped, [37494]) .leaf))) 64198 64198 (.mapped, [38524]) (.node (.node (.node .leaf 64199 64199 (.mapped, [38627]) .leaf) 64200 64200 (.mapped, [38742]) (.node .leaf 64201 64201 (.mapped, [38875]) .leaf)) 64202 64202 (.mapped, [38911]) (.node (.node .leaf 64203 64203 (.mapped, [38923]) .leaf) 64204 64204 (.mapped, [38971]) (.node .leaf 64205 64205 (.mapped, [39698]) .leaf)))) 64206 64206 (.mapped, [40860]) (.node (.node (.node (.node (.node .leaf 64207 64207 (.mapped, [141386]) .leaf) 64208 64208 (.mapped, [141380]) .leaf) 64209 64209 (.mapped, [144341]) (.node .leaf 64210 64210 (.mapped, [15261]) .leaf)) 64211 64211 (.mapped, [16408]) (.node (.node .leaf 64212 64212 (.mapped, [16441]) .leaf) 64213 64213 (.mapped, [152137]) (.node .leaf 64214 64214 (.mapped, [154832]) .leaf))) 64215 64215 (.mapped, [163539]) (.node (.node (.node .leaf 64216 64216 (.mapped, [40771]) .leaf) 64217 64217 (.mapped, [40846]) (.node .leaf 64218 64255 (.disallowed, []) .leaf)) 64256 64256 (.mapped, [102, 102]) (.node (.node .leaf 64257 64257 (.mapped, [102, 105]) .leaf) 64258 64258 (.mapped, [102, 108]) (.node .leaf 64259 64259 (.mapped, [102, 102, 105]) .leaf)))))) 64260 64260 (.mapped, [102, 102, 108]) (.node (.node (.node (.node (.node (.node (.node .leaf 64261 64262 (.mapped, [115, 116]) .leaf) 64263 64274 (.disallowed, []) .leaf) 64275 64275 (.mapped, [1396, 1398]) (.node .leaf 64276 64276 (.mapped, [1396, 1381]) .leaf)) 64277 64277 (.mapped, [1396, 1387]) (.node (.node .leaf 64278 64278 (.mapped, [1406, 1398]) .leaf) 64279 64279 (.mapped, [1396, 1389]) (.node .leaf 64280 64284 (.disallowed, []) .leaf))) 64285 64285 (.mapped, [1497, 1460]) (.node (.node (.node .leaf 64286 64286 (.valid, []) .leaf) 64287 64287 (.mapped, [1522, 1463]) (.node .leaf 64288 64288 (.mapped, [1506]) .leaf)) 64289 64289 (.mapped, [1488]) (.node (.node .leaf 64290 64290 (.mapped, [1491]) .leaf) 64291 64291 (.mapped, [1492]) (.node .leaf 64292 64292 (.mapped, [1499]) .leaf)))) 64293 64293 (.mapped, [1500]) (.node (.node (.node (.node (.node .leaf 64294 64294 (.mapped, [1501]) .leaf) 64295 64295 (.mapped, [1512]) .leaf) 64296 64296 (.mapped, [1514]) (.node .leaf 64297 64297 (.std3Mapped, [43]) .leaf)) 64298 64298 (.mapped, [1513, 1473]) (.node (.node .leaf 64299 64299 (.mapped, [1513, 1474]) .leaf) 64300 64300 (.mapped, [1513, 1468, 1473]) (.node .leaf 64301 64301 (.mapped, [1513, 1468, 1474]) .leaf))) 64302 64302 (.mapped, [1488, 1463]) (.node (.node (.node .leaf 64303 64303 (.mapped, [1488, 1464]) .leaf) 64304 64304 (.mapped, [1488, 1468]) (.node .leaf 64305 64305 (.mapped, [1489, 1468]) .leaf)) 64306 64306 (.mapped, [1490, 1468]) (.node (.node .leaf 64307 64307 (.mapped, [1491, 1468]) .leaf) 64308 64308 (.mapped, [1492, 1468]) (.node .leaf 64309 64309 (.mapped, [1493, 1468]) .leaf))))) 64310 64310 (.mapped, [1494, 1468]) (.node (.node (.node (.node (.node (.node .leaf 64311 64311 (.disallowed, []) .leaf) 64312 64312 (.mapped, [1496, 1468]) .leaf) 64313 64313 (.mapped, [1497, 1468]) (.node .leaf 64314 64314 (.mapped, [1498, 1468]) .leaf)) 64315 64315 (.mapped, [1499, 1468]) (.node (.node .leaf 64316 64316 (.mapped, [1500, 1468]) .leaf) 64317 64317 (.disallowed, []) (.node .leaf 64318 64318 (.mapped, [1502, 1468]) .leaf))) 64319 64319 (.disallowed, []) (.node (.node (.node .leaf 64320 64320 (.mapped, [1504, 1468]) .leaf) 64321 64321 (.mapped, [1505, 1468]) (.node .leaf 64322 64322 (.disallowed, []) .leaf)) 64323 64323 (.mapped, [1507, 1468]) (.node (.node .leaf 64324 64324 (.mapped, [1508, 1468]) .leaf) 64325 64325 (.disallowed, []) (.node .leaf 64326 64326 (.mapped, [1510, 1468]) .leaf)))) 64327 64327 (.mapped, [1511, 1468]) (.node (.node (.node (.node (.node .leaf 64328 64328 (.mapped, [1512, 1468]) .leaf) 64329 64329 (.mapped, [1513, 1468]) .leaf) 64330 64330 (.mapped, [1514, 1468]) (.node .leaf 64331 64331 (.mapped, [1493, 1465]) .leaf)) 64332 64332 (.mapped, [1489, 1471]) (.node (.node .leaf 64333 64333 (.mapped, [1499, 1471]) .leaf) 64334 64334 (.mapped, [1508, 1471]) (.node .leaf 64335 64335 (.mapped, [1488, 1500]) .leaf))) 64336 64337 (.mapped, [1649]) (.node (.node (.node .leaf 64338 64341 (.mapped, [1659]) .leaf) 64342 64345 (.mapped, [1662]) (.node .leaf 64346 64349 (.mapped, [1664]) .leaf)) 64350 64353 (.mapped, [1658]) (.node (.node .leaf 64354 64357 (.mapped, [1663]) .leaf) 64358 64361 (.mapped, [1657]) (.node .leaf 64362 64365 (.mapped, [1700]) .leaf))))))))

def idnaTable18 : RTree (Status × List Nat) := (.node (.node (.node (.node (.node (.node (.node (.node (.node .leaf 64370 64373 (.mapped, [1668]) .leaf) 64374 64377 (.mapped, [1667]) .leaf) 64378 64381 (.mapped, [1670]) (.node .leaf 64382 64385 (.mapped, [1671]) .leaf)) 64386 64387 (.mapped, [1677]) (.node (.node .leaf 64388 64389 (.mapped, [1676]) .leaf) 64390 64391 (.mapped, [1678]) (.node .leaf 64392 64393 (.mapped, [1672]) .leaf))) 64394 64395 (.mapped, [1688]) (.node (.node (.node (.node .leaf 64396 64397 (.mapped, [1681]) .leaf) 64398 64401 (.mapped, [1705]) .leaf) 64402 64405 (.mapped, [1711]) (.node .leaf 64406 64409 (.mapped, [1715]) .leaf)) 64410 64413 (.mapped, [1713]) (.node (.node .leaf 64414 64415 (.mapped, [1722]) .leaf) 64416 64419 (.mapped, [1723]) (.node .leaf 64420 64421 (.mapped, [1728]) .leaf)))) 64422 64425 (.mapped, [1729]) (.node (.node (.node (.node (.node .leaf 64426 64429 (.mapped, [1726]) .leaf) 64430 64431 (.mapped, [1746]) .leaf) 64432 64433 (.mapped, [1747]) (.node .leaf 64434 64449 (.valid, []) .leaf)) 64450 64466 (.disallowed, []) (.node (.node .leaf 64467 64470 (.mapped, [1709]) .leaf) 64471 64472 (.mapped, [1735]) (.node .leaf 64473 64474 (.mapped, [1734]) .leaf))) 64475 64476 (.mapped, [1736]) (.node (.node (.node .leaf 64477 64477 (.mapped, [1735, 1652]) .leaf) 64478 64479 (.mapped, [1739]) (.node .leaf 64480 64481 (.mapped, [1733]) .leaf)) 64482 64483 (.mapped, [1737]) (.node (.node .leaf 64484 64487 (.mapped, [1744]) .leaf) 64488 64489 (.mapped, [1609]) (.node .leaf 64490 64491 (.mapped, [1574, 1575]) .leaf))))) 64492 64493 (.mapped, [1574, 1749]) (.node (.node (.node (.node (.node (.node .leaf 64494 64495 (.mapped, [1574, 1608]) .leaf) 64496 64497 (.mapped, [1574, 1735]) .leaf) 64498 64499 (.mapped, [1574, 1734]) (.node .leaf 64500 64501 (.mapped, [1574, 1736]) .leaf)) 64502 64504 (.mapped, [1574, 1744]) (.node (.node .leaf 64505 64507 (.mapped, [1574, 1609]) .leaf) 64508 64511 (.mapped, [1740]) (.node .leaf 64512 64512 (.mapped, [1574, 1580]) .leaf))) 64513 64513 (.mapped, [1574, 1581]) (.node (.node (.node .leaf 64514 64514 (.mapped, [1574, 1605]) .leaf) 64515 64515 (.mapped, [1574, 1609]) (.node .leaf 64516 64516 (.mapped, [1574, 1610]) .leaf)) 64517 64517 (.mapped, [1576, 1580]) (.node (.node .leaf 64518 64518 (.mapped, [1576, 1581]) .leaf) 64519 64519 (.mapped, [1576, 1582]) (.node .leaf 64520 64520 (.mapped, [1576, 1605]) .leaf)))) 64521 64521 (.mapped, [1576, 1609]) (.node (.node (.node (.node (.node .leaf 64522 64522 (.mapped, [1576, 1610]) .leaf) 64523 64523 (.mapped, [1578, 1580]) .leaf) 64524 64524 (.mapped, [1578, 1581]) (.node .leaf 64525 64525 (.mapped, [1578, 1582]) .leaf)) 64526 64526 (.mapped, [1578, 1605]) (.node (.node .leaf 64527 64527 (.mapped, [1578, 1609]) .leaf) 64528 64528 (.mapped, [1578, 1610]) (.node .leaf 64529 64529 (.mapped, [1579, 1580]) .leaf))) 64530 64530 (.mapped, [1579, 1605]) (.node (.node (.node .leaf 64531 64531 (.mapped, [1579, 1609]) .leaf) 64532 64532 (.mapped, [1579, 1610]) (.node .leaf 64533 64533 (.mapped, [1580, 1581]) .leaf)) 64534 64534 (.mapped, [1580, 1605]) (.node (.node .leaf 64535 64535 (.mapped, [1581, 1580]) .leaf) 64536 64536 (.mapped, [1581, 1605]) (.node .leaf 64537 64537 (.mapped, [1582, 1580]) .leaf)))))) 64538 64538 (.mapped, [1582, 1581]) (.node (.node (.node (.node (.node (.node (.node .leaf 64539 64539 (.mapped, [1582, 1605]) .leaf) 64540 64540 (.mapped, [1587, 1580]) .leaf) 64541 64541 (.mapped, [1587, 1581]) (.node .leaf 64542 64542 (.mapped, [1587, 1582]) .leaf)) 64543 64543 (.mapped, [1587, 1605]) (.node (.node .leaf 64544 64544 (.mapped, [1589, 1581]) .leaf) 64545 64545 (.mapped, [1589, 1605]) (.node .leaf 64546 64546 (.mapped, [1590, 1580]) .leaf))) 64547 64547 (.mapped, [1590, 1581]) (.node (.node (.node .leaf 64548 64548 (.mapped, [1590, 1582]) .leaf) 64549 64549 (.mapped, [1590, 1605]) (.node .leaf 64550 64550 (.mapped, [1591, 1581]) .leaf)) 64551 64551 (.mapped, [1591, 1605]) (.node (.node .leaf 64552 64552 (.mapped, [1592, 1605]) .leaf) 64553 64553 (.mapped, [1593, 1580]) (.node .leaf 64554 64554 (.mapped, [1593, 1605]) .leaf)))) 64555 64555 (.mapped, [1594, 1580]) (.node (.node (.node (.node (.node .leaf 64556 64556 (.mapped, [1594, 1605]) .leaf) 64557 64557 (.mapped, [1601, 1580]) .leaf) 64558 64558 (.mapped, [1601, 1581]) (.node .leaf 64559 64559 (.mapped, [1601, 1582]) .leaf)) 64560 64560 (.mapped, [1601, 1605]) (.node (.node .leaf 64561 64561 (.mapped, [1601, 1609]) .leaf) 64562 64562 (.mapped, [1601, 1610]) (.node .leaf 64563 64563 (.mapped, [1602, 1581]) .leaf))) 64564 64564 (.mapped, [1602, 1605]) (.node (.node (.node .leaf 64565 64565 (.mapped, [1602, 1609]) .leaf) 64566 64566 (.mapped, [1602, 1610]) (.node .leaf 64567 64567 (.mapped, [1603, 1575]) .leaf)) 64568 64568 (.mapped, [1603, 1580]) (.node (.node .leaf 64569 64569 (.mapped, [1603, 1581]) .leaf) 64570 64570 (.mapped, [1603, 1582]) (.node .leaf 64571 64571 (.mapped, [1603, 1604]) .leaf))))) 64572 64572 (.mapped, [1603, 1605]) (.node (.node (.node (.node (.node (.node .leaf 64573 64573 (.mapped, [1603, 1609]) .leaf) 64574 64574 (.mapped, [1603, 1610]) .leaf) 64575 64575 (.mapped, [1604, 1580]) (.node .leaf 64576 64576 (.mapped, [1604, 1581]) .leaf)) 64577 64577 (.mapped, [1604, 1582]) (.node (.node .leaf 64578 64578 (.mapped, [1604, 1605]) .leaf) 64579 64579 (.mapped, [1604, 1609]) (.node .leaf 64580 64580 (.mapped, [1604, 1610]) .leaf))) 64581 64581 (.mapped, [1605, 1580]) (.node (.node (.node .leaf 64582 64582 (.mapped, [1605, 1581]) .leaf) 64583 64583 (.mapped, [1605, 1582]) (.node .leaf 64584 64584 (.mapped, [1605, 1605]) .leaf)) 64585 64585 (.mapped, [1605, 1609]) (.node (.node .leaf 64586 64586 (.mapped, [1605, 1610]) .leaf) 64587 64587 (.mapped, [1606, 1580]) (.node .leaf 64588 64588 (.mapped, [1606, 1581]) .leaf)))) 64589 64589 (.mapped, [1606, 1582]) (.node (.node (.node (.node (.node .leaf 64590 64590 (.mapped, [1606, 1605]) .leaf) 64591 64591 (.mapped, [1606, 1609]) .leaf) 64592 64592 (.mapped, [1606, 1610]) (.node .leaf 64593 64593 (.mapped, [1607, 1580]) .leaf)) 64594 64594 (.mapped, [1607, 1605]) (.node (.node .leaf 64595 64595 (.mapped, [1607, 1609]) .leaf) 64596 64596 (.mapped, [1607, 1610]) (.node .leaf 64597 64597 (.mapped, [1610, 1580]) .leaf))) 64598 64598 (.mapped, [1610, 1581]) (.node (.node (.node .leaf 64599 64599 (.mapped, [1610, 1582]) .leaf) 64600 64600 (.mapped, [1610, 1605]) (.node .leaf 64601 64601 (.mapped, [1610, 1609]) .leaf)) 64602 64602 (.mapped, [1610, 1610]) (.node (.node .leaf 64603 64603 (.mapped, [1584, 1648]) .leaf) 64604 64604 (.mapped, [1585, 1648]) (.node .leaf 64605 64605 (.mapped, [1609, 1648]) .leaf))))))) 64606 64606 (.std3Mapped, [32, 1612, 1617]) (.node (.node (.node (.node (.node (.node (.node (.node .leaf 64607 64607 (.std3Mapped, [32, 1613, 1617]) .leaf) 64608 64608 (.std3Mapped, [32, 1614, 1617]) .leaf) 64609 64609 (.std3Mapped, [32, 1615, 1617]) (.node .leaf 64610 64610 (.std3Mapped, [32, 1616, 1617]) .leaf)) 64611 64611 (.std3Mapped, [32, 1617, 1648]) (.node (.node .leaf 64612 64612 (.mapped, [1574, 1585]) .leaf) 64613 64613 (.mapped, [1574, 1586]) (.node .leaf 64614 64614 (.mapped, [1574, 1605]) .leaf))) 64615 64615 (.mapped, [1574, 1606]) (.node (.node (.node .leaf 64616 64616 (.mapped, [1574, 1609]) .leaf) 64617 64617 (.mapped, [1574, 1610]) (.node .leaf 64618 64618 (.mapped, [1576, 1585]) .leaf)) 64619 64619 (.mapped, [1576, 1586]) (.node (.node .leaf 64620 64620 (.mapped, [1576, 1605]) .leaf) 64621 64621 (.mapped, [1576, 1606]) (.node .leaf 64622 64622 (.mapped, [1576, 1609]) .leaf)))) 64623 64623 (.mapped, [1576, 1610]) (.node (.node (.node (.node (.node .leaf 64624 64624 (.mapped, [1578, 1585]) .leaf) 64625 64625 (.mapped, [1578, 1586]) .leaf) 64626 64626 (.mapped, [1578, 1605]) (.node .leaf 64627 64627 (.mapped, [1578, 1606]) .leaf)) 64628 64628 (.mapped, [1578, 1609]) (.node (.node .leaf 64629 64629 (.mapped, [1578, 1610]) .leaf) 64630 64630 (.mapped, [1579, 1585]) (.node .leaf 64631 64631 (.mapped, [1579, 1586]) .leaf))) 64632 64632 (.mapped, [1579, 1605]) (.node (.node (.node .leaf 64633 64633 (.mapped, [1579, 1606]) .leaf) 64634 64634 (.mapped, [1579, 1609]) (.node .leaf 64635 64635 (.mapped, [1579, 1610]) .leaf)) 64636 64636 (.mapped, [1601, 1609]) (.node (.node .leaf 64637 64637 (.mapped, [1601, 1610]) .leaf) 64638 64638 (.mapped, [1602, 1609]) (.node .leaf 64639 64639 (.mapped, [1602, 1610]) .leaf))))) 64640 64640 (.mapped, [1603, 1575]) (.node (.node (.node (.node (.node (.node .leaf 64641 64641 (.mapped, [1603, 1604]) .leaf) 64642 64642 (.mapped, [1603, 1605]) .leaf) 64643 64643 (.mapped, [1603, 1609]) (.node .leaf 64644 64644 (.mapped, [1603, 1610]) .leaf)) 64645 64645 (.mapped, [1604, 1605]) (.node (.node .leaf 64646 64646 (.mapped, [1604, 1609]) .leaf) 64647 64647 (.mapped, [1604, 1610]) (.node .leaf 64648 64648 (.mapped, [1605, 1575]) .leaf))) 64649 64649 (.mapped, [1605, 1605]) (.node (.node (.node .leaf 64650 64650 (.mapped, [1606, 1585]) .leaf) 64651 64651 (.mapped, [1606, 1586]) (.node .leaf 64652 64652 (.mapped, [1606, 1605]) .leaf)) 64653 64653 (.mapped, [1606, 1606]) (.node (.node .leaf 64654 64654 (.mapped, [1606, 1609]) .leaf) 64655 64655 (.mapped, [1606, 1610]) (.node .leaf 64656 64656 (.mapped, [1609, 1648]) .leaf)))) 64657 64657 (.mapped, [1610, 1585]) (.node (.node (.node (.node (.node .leaf 64658 64658 (.mapped, [1610, 1586]) .leaf) 64659 64659 (.mapped, [1610, 1605]) .leaf) 64660 64660 (.mapped, [1610, 1606]) (.node .leaf 64661 64661 (.mapped, [1610, 1609]) .leaf)) 64662 64662 (.mapped, [1610, 1610]) (.node (.node .leaf 64663 64663 (.mapped, [1574, 1580]) .leaf) 64664 64664 (.mapped, [1574, 1581]) (.node .leaf 64665 64665 (.mapped, [1574, 1582]) .leaf))) 64666 64666 (.mapped, [1574, 1605]) (.node (.node (.node .leaf 64667 64667 (.mapped, [1574, 1607]) .leaf) 64668 64668 (.mapped, [1576, 1580]) (.node .leaf 64669 64669 (.mapped, [1576, 1581]) .leaf)) 64670 64670 (.mapped, [1576, 1582]) (.node (.node .leaf 64671 64671 (.mapped, [1576, 1605]) .leaf) 64672 64672 (.mapped, [1576, 1607]) (.node .leaf 64673 64673 (.mapped, [1578, 1580]) .leaf)))))) 64674 64674 (.mapped, [1578, 1581]) (.node (.node (.node (.node (.node (.node (.node .leaf 64675 64675 (.mapped, [1578, 1582]) .leaf) 64676 64676 (.mapped, [1578, 1605]) .leaf) 64677 64677 (.mapped, [1578, 1607]) (.node .leaf 64678 64678 (.mapped, [1579, 1605]) .leaf)) 64679 64679 (.mapped, [1580, 1581]) (.node (.node .leaf 64680 64680 (.mapped, [1580, 1605]) .leaf) 64681 64681 (.mapped, [1581, 1580]) (.node .leaf 64682 64682 (.mapped, [1581, 1605]) .leaf))) 64683 64683 (.mapped, [1582, 1580]) (.node (.node (.node .leaf 64684 64684 (.mapped, [1582, 1605]) .leaf) 64685 64685 (.mapped, [1587, 1580]) (.node .leaf 64686 64686 (.mapped, [1587, 1581]) .leaf)) 64687 64687 (.mapped, [1587, 1582]) (.node (.node .leaf 64688 64688 (.mapped, [1587, 1605]) .leaf) 64689 64689 (.mapped, [1589, 1581]) (.node .leaf 64690 64690 (.mapped, [1589, 1582]) .leaf)))) 64691 64691 (.mapped, [1589, 1605]) (.node (.node (.node (.node (.node .leaf 64692 64692 (.mapped, [1590, 1580]) .leaf) 64693 64693 (.mapped, [1590, 1581]) .leaf) 64694 64694 (.mapped, [1590, 1582]) (.node .leaf 64695 64695 (.mapped, [1590, 1605]) .leaf)) 64696 64696 (.mapped, [1591, 1581]) (.node (.node .leaf 64697 64697 (.mapped, [1592, 1605]) .leaf) 64698 64698 (.mapped, [1593, 1580]) (.node .leaf 64699 64699 (.mapped, [1593, 1605]) .leaf))) 64700 64700 (.mapped, [1594, 1580]) (.node (.node (.node .leaf 64701 64701 (.mapped, [1594, 1605]) .leaf) 64702 64702 (.mapped, [1601, 1580]) (.node .leaf 64703 64703 (.mapped, [1601, 1581]) .leaf)) 64704 64704 (.mapped, [1601, 1582]) (.node (.node .leaf 64705 64705 (.mapped, [1601, 1605]) .leaf) 64706 64706 (.mapped, [1602, 1581]) (.node .leaf 64707 64707 (.mapped, [1602, 1605]) .leaf))))) 64708 64708 (.mapped, [1603, 1580]) (.node (.node (.node (.node (.node (.node .leaf 64709 64709 (.mapped, [1603, 1581]) .leaf) 64710 64710 (.mapped, [1603, 1582]) .leaf) 64711 64711 (.mapped, [1603, 1604]) (.node .leaf 64712 64712 (.mapped, [1603, 1605]) .leaf)) 64713 64713 (.mapped, [1604, 1580]) (.node (.node .leaf 64714 64714 (.mapped, [1604, 1581]) .leaf) 64715 64715 (.mapped, [1604, 1582]) (.node .leaf 64716 64716 (.mapped, [1604, 1605]) .leaf))) 64717 64717 (.mapped, [1604, 1607]) (.node (.node (.node .leaf 64718 64718 (.mapped, [1605, 1580]) .leaf) 64719 64719 (.mapped, [1605, 1581]) (.node .leaf 64720 64720 (.mapped, [1605, 1582]) .leaf)) 64721 64721 (.mapped, [1605, 1605]) (.node (.node .leaf 64722 64722 (.mapped, [1606, 1580]) .leaf) 64723 64723 (.mapped, [1606, 1581]) (.node .leaf 64724 64724 (.mapped, [1606, 1582]) .leaf)))) 64725 64725 (.mapped, [1606, 1605]) (.node (.node (.node (.node (.node .leaf 64726 64726 (.mapped, [1606, 1607]) .leaf) 64727 64727 (.mapped, [1607, 1580]) .leaf) 64728 64728 (.mapped, [1607, 1605]) (.node .leaf 64729 64729 (.mapped, [1607, 1648]) .leaf)) 64730 64730 (.mapped, [1610, 1580]) (.node (.node .leaf 64731 64731 (.mapped, [1610, 1581]) .leaf) 64732 64732 (.mapped, [1610, 1582]) (.node .leaf 64733 64733 (.mapped, [1610, 1605]) .leaf))) 64734 64734 (.mapped, [1610, 1607]) (.node (.node (.node .leaf 64735 64735 (.mapped, [1574, 1605]) .leaf) 64736 64736 (.mapped, [1574, 1607]) (.node .leaf 64737 64737 (.mapped, [1576, 1605]) .leaf)) 64738 64738 (.mapped, [1576, 1607]) (.node (.node .leaf 64739 64739 (.mapped, [1578, 1605]) .leaf) 64740 64740 (.mapped, [1578, 1607]) (.node .leaf 64741 64741 (.mapped, [1579, 1605]) .leaf))))))))

def idnaTable19 : RTree (Status × List Nat) := (.node (.node (.node (.node (.node (.node (.node (.node (.node .leaf 64743 64743 (.mapped, [1587, 1605]) .leaf) 64744 64744 (.mapped, [1587, 1607]) .leaf) 64745 64745 (.mapped, [1588, 1605]) (.node .leaf 64746 64746 (.mapped, [1588, 1607]) .leaf)) 64747 64747 (.mapped, [1603, 1604]) (.node (.node .leaf 64748 64748 (.mapped, [1603, 1605]) .leaf) 64749 64749 (.mapped, [1604, 1605]) (.node .leaf 64750 64750 (.mapped, [1606, 1605]) .leaf))) 64751 64751 (.mapped, [1606, 1607]) (.node (.node (.node .leaf 64752 64752 (.mapped, [1610, 1605]) .leaf) 64753 64753 (.mapped, [1610, 1607]) (.node .leaf 64754 64754 (.mapped, [1600, 1614, 1617]) .leaf)) 64755 64755 (.mapped, [1600, 1615, 1617]) (.node (.node .leaf 64756 64756 (.mapped, [1600, 1616, 1617]) .leaf) 64757 64757 (.mapped, [1591, 1609]) (.node .leaf 64758 64758 (.mapped, [1591, 1610]) .leaf)))) 64759 64759 (.mapped, [1593, 1609]) (.node (.node (.node (.node (.node .leaf 64760 64760 (.mapped, [1593, 1610]) .leaf) 64761 64761 (.mapped, [1594, 1609]) .leaf) 64762 64762 (.mapped, [1594, 1610]) (.node .leaf 64763 64763 (.mapped, [1587, 1609]) .leaf)) 64764 64764 (.mapped, [1587, 1610]) (.node (.node .leaf 64765 64765 (.mapped, [1588, 1609]) .leaf) 64766 64766 (.mapped, [1588, 1610]) (.node .leaf 64767 64767 (.mapped, [1581, 1609]) .leaf))) 64768 64768 (.mapped, [1581, 1610]) (.node (.node (.node .leaf 64769 64769 (.mapped, [1580, 1609]) .leaf) 64770 64770 (.mapped, [1580, 1610]) (.node .leaf 64771 64771 (.mapped, [1582, 1609]) .leaf)) 64772 64772 (.mapped, [1582, 1610]) (.node (.node .leaf 64773 64773 (.mapped, [1589, 1609]) .leaf) 64774 64774 (.mapped, [1589, 1610]) (.node .leaf 64775 64775 (.mapped, [1590, 1609]) .leaf))))) 64776 64776 (.mapped, [1590, 1610]) (.node (.node (.node (.node (.node (.node .leaf 64777 64777 (.mapped, [1588, 1580]) .leaf) 64778 64778 (.mapped, [1588, 1581]) .leaf) 64779 64779 (.mapped, [1588, 1582]) (.node .leaf 64780 64780 (.mapped, [1588, 1605]) .leaf)) 64781 64781 (.mapped, [1588, 1585]) (.node (.node .leaf 64782 64782 (.mapped, [1587, 1585]) .leaf) 64783 64783 (.mapped, [1589, 1585]) (.node .leaf 64784 64784 (.mapped, [1590, 1585]) .leaf))) 64785 64785 (.mapped, [1591, 1609]) (.node (.node (.node .leaf 64786 64786 (.mapped, [1591, 1610]) .leaf) 64787 64787 (.mapped, [1593, 1609]) (.node .leaf 64788 64788 (.mapped, [1593, 1610]) .leaf)) 64789 64789 (.mapped, [1594, 1609]) (.node (.node .leaf 64790 64790 (.mapped, [1594, 1610]) .leaf) 64791 64791 (.mapped, [1587, 1609]) (.node .leaf 64792 64792 (.mapped, [1587, 1610]) .leaf)))) 64793 64793 (.mapped, [1588, 1609]) (.node (.node (.node (.node (.node .leaf 64794 64794 (.mapped, [1588, 1610]) .leaf) 64795 64795 (.mapped, [1581, 1609]) .leaf) 64796 64796 (.mapped, [1581, 1610]) (.node .leaf 64797 64797 (.mapped, [1580, 1609]) .leaf)) 64798 64798 (.mapped, [1580, 1610]) (.node (.node .leaf 64799 64799 (.mapped, [1582, 1609]) .leaf) 64800 64800 (.mapped, [1582, 1610]) (.node .leaf 64801 64801 (.mapped, [1589, 1609]) .leaf))) 64802 64802 (.mapped, [1589, 1610]) (.node (.node (.node .leaf 64803 64803 (.mapped, [1590, 1609]) .leaf) 64804 64804 (.mapped, [1590, 1610]) (.node .leaf 64805 64805 (.mapped, [1588, 1580]) .leaf)) 64806 64806 (.mapped, [1588, 1581]) (.node (.node .leaf 64807 64807 (.mapped, [1588, 1582]) .leaf) 64808 64808 (.mapped, [1588, 1605]) (.node .leaf 64809 64809 (.mapped, [1588, 1585]) .leaf)))))) 64810 64810 (.mapped, [1587, 1585]) (.node (.node (.node (.node (.node (.node (.node .leaf 64811 64811 (.mapped, [1589, 1585]) .leaf) 64812 64812 (.mapped, [1590, 1585]) .leaf) 64813 64813 (.mapped, [1588, 1580]) (.node .leaf 64814 64814 (.mapped, [1588, 1581]) .leaf)) 64815 64815 (.mapped, [1588, 1582]) (.node (.node .leaf 64816 64816 (.mapped, [1588, 1605]) .leaf) 64817 64817 (.mapped, [1587, 1607]) (.node .leaf 64818 64818 (.mapped, [1588, 1607]) .leaf))) 64819 64819 (.mapped, [1591, 1605]) (.node (.node (.node .leaf 64820 64820 (.mapped, [1587, 1580]) .leaf) 64821 64821 (.mapped, [1587, 1581]) (.node .leaf 64822 64822 (.mapped, [1587, 1582]) .leaf)) 64823 64823 (.mapped, [1588, 1580]) (.node (.node .leaf 64824 64824 (.mapped, [1588, 1581]) .leaf) 64825 64825 (.mapped, [1588, 1582]) (.node .leaf 64826 64826 (.mapped, [1591, 1605]) .leaf)))) 64827 64827 (.mapped, [1592, 1605]) (.node (.node (.node (.node (.node .leaf 64828 64829 (.mapped, [1575, 1611]) .leaf) 64830 64831 (.valid, []) .leaf) 64832 64847 (.disallowed, []) (.node .leaf 64848 64848 (.mapped, [1578, 1580, 1605]) .leaf)) 64849 64850 (.mapped, [1578, 1581, 1580]) (.node (.node .leaf 64851 64851 (.mapped, [1578, 1581, 1605]) .leaf) 64852 64852 (.mapped, [1578, 1582, 1605]) (.node .leaf 64853 64853 (.mapped, [1578, 1605, 1580]) .leaf))) 64854 64854 (.mapped, [1578, 1605, 1581]) (.node (.node (.node .leaf 64855 64855 (.mapped, [1578, 1605, 1582]) .leaf) 64856 64857 (.mapped, [1580, 1605, 1581]) (.node .leaf 64858 64858 (.mapped, [1581, 1605, 1610]) .leaf)) 64859 64859 (.mapped, [1581, 1605, 1609]) (.node (.node .leaf 64860 64860 (.mapped, [1587, 1581, 1580]) .leaf) 64861 64861 (.mapped, [1587, 1580, 1581]) (.node .leaf 64862 64862 (.mapped, [1587, 1580, 1609]) .leaf))))) 64863 64864 (.mapped, [1587, 1605, 1581]) (.node (.node (.node (.node (.node (.node .leaf 64865 64865 (.mapped, [1587, 1605, 1580]) .leaf) 64866 64867 (.mapped, [1587, 1605, 1605]) .leaf) 64868 64869 (.mapped, [1589, 1581, 1581]) (.node .leaf 64870 64870 (.mapped, [1589, 1605, 1605]) .leaf)) 64871 64872 (.mapped, [1588, 1581, 1605]) (.node (.node .leaf 64873 64873 (.mapped, [1588, 1580, 1610]) .leaf) 64874 64875 (.mapped, [1588, 1605, 1582]) (.node .leaf 64876 64877 (.mapped, [1588, 1605, 1605]) .leaf))) 64878 64878 (.mapped, [1590, 1581, 1609]) (.node (.node (.node .leaf 64879 64880 (.mapped, [1590, 1582, 1605]) .leaf) 64881 64882 (.mapped, [1591, 1605, 1581]) (.node .leaf 64883 64883 (.mapped, [1591, 1605, 1605]) .leaf)) 64884 64884 (.mapped, [1591, 1605, 1610]) (.node (.node .leaf 64885 64885 (.mapped, [1593, 1580, 1605]) .leaf) 64886 64887 (.mapped, [1593, 1605, 1605]) (.node .leaf 64888 64888 (.mapped, [1593, 1605, 1609]) .leaf)))) 64889 64889 (.mapped, [1594, 1605, 1605]) (.node (.node (.node (.node (.node .leaf 64890 64890 (.mapped, [1594, 1605, 1610]) .leaf) 64891 64891 (.mapped, [1594, 1605, 1609]) .leaf) 64892 64893 (.mapped, [1601, 1582, 1605]) (.node .leaf 64894 64894 (.mapped, [1602, 1605, 1581]) .leaf)) 64895 64895 (.mapped, [1602, 1605, 1605]) (.node (.node .leaf 64896 64896 (.mapped, [1604, 1581, 1605]) .leaf) 64897 64897 (.mapped, [1604, 1581, 1610]) (.node .leaf 64898 64898 (.mapped, [1604, 1581, 1609]) .leaf))) 64899 64900 (.mapped, [1604, 1580, 1580]) (.node (.node (.node .leaf 64901 64902 (.mapped, [1604, 1582, 1605]) .leaf) 64903 64904 (.mapped, [1604, 1605, 1581]) (.node .leaf 64905 64905 (.mapped, [1605, 1581, 1580]) .leaf)) 64906 64906 (.mapped, [1605, 1581, 1605]) (.node (.node .leaf 64907 64907 (.mapped, [1605, 1581, 1610]) .leaf) 64908 64908 (.mapped, [1605, 1580, 1581]) (.node .leaf 64909 64909 (.mapped, [1605, 1580, 1605]) .leaf))))))) 64910 64910 (.mapped, [1605, 1582, 1580]) (.node (.node (.node (.node (.node (.node (.node (.node .leaf 64911 64911 (.mapped, [1605, 1582, 1605]) .leaf) 64912 64913 (.disallowed, []) .leaf) 64914 64914 (.mapped, [1605, 1580, 1582]) (.node .leaf 64915 64915 (.mapped, [1607, 1605, 1580]) .leaf)) 64916 64916 (.mapped, [1607, 1605, 1605]) (.node (.node .leaf 64917 64917 (.mapped, [1606, 1581, 1605]) .leaf) 64918 64918 (.mapped, [1606, 1581, 1609]) (.node .leaf 64919 64920 (.mapped, [1606, 1580, 1605]) .leaf))) 64921 64921 (.mapped, [1606, 1580, 1609]) (.node (.node (.node .leaf 64922 64922 (.mapped, [1606, 1605, 1610]) .leaf) 64923 64923 (.mapped, [1606, 1605, 1609]) (.node .leaf 64924 64925 (.mapped, [1610, 1605, 1605]) .leaf)) 64926 64926 (.mapped, [1576, 1582, 1610]) (.node (.node .leaf 64927 64927 (.mapped, [1578, 1580, 1610]) .leaf) 64928 64928 (.mapped, [1578, 1580, 1609]) (.node .leaf 64929 64929 (.mapped, [1578, 1582, 1610]) .leaf)))) 64930 64930 (.mapped, [1578, 1582, 1609]) (.node (.node (.node (.node (.node .leaf 64931 64931 (.mapped, [1578, 1605, 1610]) .leaf) 64932 64932 (.mapped, [1578, 1605, 1609]) .leaf) 64933 64933 (.mapped, [1580, 1605, 1610]) (.node .leaf 64934 64934 (.mapped, [1580, 1581, 1609]) .leaf)) 64935 64935 (.mapped, [1580, 1605, 1609]) (.node (.node .leaf 64936 64936 (.mapped, [1587, 1582, 1609]) .leaf) 64937 64937 (.mapped, [1589, 1581, 1610]) (.node .leaf 64938 64938 (.mapped, [1588, 1581, 1610]) .leaf))) 64939 64939 (.mapped, [1590, 1581, 1610]) (.node (.node (.node .leaf 64940 64940 (.mapped, [1604, 1580, 1610]) .leaf) 64941 64941 (.mapped, [1604, 1605, 1610]) (.node .leaf 64942 64942 (.mapped, [1610, 1581, 1610]) .leaf)) 64943 64943 (.mapped, [1610, 1580, 1610]) (.node (.node .leaf 64944 64944 (.mapped, [1610, 1605, 1610]) .leaf) 64945 64945 (.mapped, [1605, 1605, 1610]) (.node .leaf 64946 64946 (.mapped, [1602, 1605, 1610]) .leaf))))) 64947 64947 (.mapped, [1606, 1581, 1610]) (.node (.node (.node (.node (.node (.node .leaf 64948 64948 (.mapped, [1602, 1605, 1581]) .leaf) 64949 64949 (.mapped, [1604, 1581, 1605]) .leaf) 64950 64950 (.mapped, [1593, 1605, 1610]) (.node .leaf 64951 64951 (.mapped, [1603, 1605, 1610]) .leaf)) 64952 64952 (.mapped, [1606, 1580, 1581]) (.node (.node .leaf 64953 64953 (.mapped, [1605, 1582, 1610]) .leaf) 64954 64954 (.mapped, [1604, 1580, 1605]) (.node .leaf 64955 64955 (.mapped, [1603, 1605, 1605]) .leaf))) 64956 64956 (.mapped, [1604, 1580, 1605]) (.node (.node (.node .leaf 64957 64957 (.mapped, [1606, 1580, 1581]) .leaf) 64958 64958 (.mapped, [1580, 1581, 1610]) (.node .leaf 64959 64959 (.mapped, [1581, 1580, 1610]) .leaf)) 64960 64960 (.mapped, [1605, 1580, 1610]) (.node (.node .leaf 64961 64961 (.mapped, [1601, 1605, 1610]) .leaf) 64962 64962 (.mapped, [1576, 1581, 1610]) (.node .leaf 64963 64963 (.mapped, [1603, 1605, 1605]) .leaf)))) 64964 64964 (.mapped, [1593, 1580, 1605]) (.node (.node (.node (.node (.node .leaf 64965 64965 (.mapped, [1589, 1605, 1605]) .leaf) 64966 64966 (.mapped, [1587, 1582, 1610]) .leaf) 64967 64967 (.mapped, [1606, 1580, 1610]) (.node .leaf 64968 64975 (.disallowed, []) .leaf)) 64976 65007 (.disallowed, []) (.node (.node .leaf 65008 65008 (.mapped, [1589, 1604, 1746]) .leaf) 65009 65009 (.mapped, [1602, 1604, 1746]) (.node .leaf 65010 65010 (.mapped, [1575, 1604, 1604, 1607]) .leaf))) 65011 65011 (.mapped, [1575, 1603, 1576, 1585]) (.node (.node (.node .leaf 65012 65012 (.mapped, [1605, 1581, 1605, 1583]) .leaf) 65013 65013 (.mapped, [1589, 1604, 1593, 1605]) (.node .leaf 65014 65014 (.mapped, [1585, 1587, 1608, 1604]) .leaf)) 65015 65015 (.mapped, [1593, 1604, 1610, 1607]) (.node (.node .leaf 65016 65016 (.mapped, [1608, 1587, 1604, 1605]) .leaf) 65017 65017 (.mapped, [1589, 1604, 1609]) (.node .leaf 65018 65018 (.std3Mapped, [1589, 1604, 1609, 32, 1575, 1604, 1604, 1607, 32, 1593, 1604, 1610, 1607, 32, 1608, 1587, 1604, 1605]) .leaf)))))) 65019 65019 (.std3Mapped, [1580, 1604, 32, 1580, 1604, 1575, 1604, 1607]) (.node (.node (.node (.node (.node (.node (.node .leaf 65020 65020 (.mapped, [1585, 1740, 1575, 1604]) .leaf) 65021 65021 (.valid, []) .leaf) 65022 65023 (.disallowed, []) (.node .leaf 65024 65039 (.ignored, []) .leaf)) 65040 65040 (.std3Mapped, [44]) (.node (.node .leaf 65041 65041 (.mapped, [12289]) .leaf) 65042 65042 (.disallowed, []) (.node .leaf 65043 65043 (.std3Mapped, [58]) .leaf))) 65044 65044 (.std3Mapped, [59]) (.node (.node (.node .leaf 65045 65045 (.std3Mapped, [33]) .leaf) 65046 65046 (.std3Mapped, [63]) (.node .leaf 65047 65047 (.mapped, [12310]) .leaf)) 65048 65048 (.mapped, [12311]) (.node (.node .leaf 65049 65049 (.disallowed, []) .leaf) 65050 65055 (.disallowed, []) (.node .leaf 65056 65059 (.valid, []) .leaf)))) 65060 65062 (.valid, []) (.node (.node (.node (.node (.node .leaf 65063 65069 (.valid, []) .leaf) 65070 65071 (.valid, []) .leaf) 65072 65072 (.disallowed, []) (.node .leaf 65073 65073 (.mapped, [8212]) .leaf)) 65074 65074 (.mapped, [8211]) (.node (.node .leaf 65075 65076 (.std3Mapped, [95]) .leaf) 65077 65077 (.std3Mapped, [40]) (.node .leaf 65078 65078 (.std3Mapped, [41]) .leaf))) 65079 65079 (.std3Mapped, [123]) (.node (.node (.node .leaf 65080 65080 (.std3Mapped, [125]) .leaf) 65081 65081 (.mapped, [12308]) (.node .leaf 65082 65082 (.mapped, [12309]) .leaf)) 65083 65083 (.mapped, [12304]) (.node (.node .leaf 65084 65084 (.mapped, [12305]) .leaf) 65085 65085 (.mapped, [12298]) (.node .leaf 65086 65086 (.mapped, [12299]) .leaf))))) 65087 65087 (.mapped, [12296]) (.node (.node (.node (.node (.node (.node .leaf 65088 65088 (.mapped, [12297]) .leaf) 65089 65089 (.mapped, [12300]) .leaf) 65090 65090 (.mapped, [12301]) (.node .leaf 65091 65091 (.mapped, [12302]) .leaf)) 65092 65092 (.mapped, [12303]) (.node (.node .leaf 65093 65094 (.valid, []) .leaf) 65095 65095 (.std3Mapped, [91]) (.node .leaf 65096 65096 (.std3Mapped, [93]) .leaf))) 65097 65100 (.std3Mapped, [32, 773]) (.node (.node (.node .leaf 65101 65103 (.std3Mapped, [95]) .leaf) 65104 65104 (.std3Mapped, [44]) (.node .leaf 65105 65105 (.mapped, [12289]) .leaf)) 65106 65106 (.disallowed, []) (.node (.node .leaf 65107 65107 (.disallowed, []) .leaf) 65108 65108 (.std3Mapped, [59]) (.node .leaf 65109 65109 (.std3Mapped, [58]) .leaf)))) 65110 65110 (.std3Mapped, [63]) (.node (.node (.node (.node (.node .leaf 65111 65111 (.std3Mapped, [33]) .leaf) 65112 65112 (.mapped, [8212]) .leaf) 65113 65113 (.std3Mapped, [40]) (.node .leaf 65114 65114 (.std3Mapped, [41]) .leaf)) 65115 65115 (.std3Mapped, [123]) (.node (.node .leaf 65116 65116 (.std3Mapped, [125]) .leaf) 65117 65117 (.mapped, [12308]) (.node .leaf 65118 65118 (.mapped, [12309]) .leaf))) 65119 65119 (.std3Mapped, [35]) (.node (.node (.node .leaf 65120 65120 (.std3Mapped, [38]) .leaf) 65121 65121 (.std3Mapped, [42]) (.node .leaf 65122 65122 (.std3Mapped, [43]) .leaf)) 65123 65123 (.mapped, [45]) (.node (.node .leaf 65124 65124 (.std3Mapped, [60]) .leaf) 65125 65125 (.std3Mapped, [62]) (.node .leaf 65126 65126 (.std3Mapped, [61]) .leaf))))))))

def idnaTable20 : RTree (Status × List Nat) := (.node (.node (.node (.node (.node (.node (.node (.node (.node .leaf 65128 65128 (.std3Mapped, [92]) .leaf) 65129 65129 (.std3Mapped, [36]) .leaf) 65130 65130 (.std3Mapped, [37]) (.node .leaf 65131 65131 (.std3Mapped, [64]) .leaf)) 65132 65135 (.disallowed, []) (.node (.node .leaf 65136 65136 (.std3Mapped, [32, 1611]) .leaf) 65137 65137 (.mapped, [1600, 1611]) (.node .leaf 65138 65138 (.std3Mapped, [32, 1612]) .leaf))) 65139 65139 (.valid, []) (.node (.node (.node (.node .leaf 65140 65140 (.std3Mapped, [32, 1613]) .leaf) 65141 65141 (.disallowed, []) .leaf) 65142 65142 (.std3Mapped, [32, 1614]) (.node .leaf 65143 65143 (.mapped, [1600, 1614]) .leaf)) 65144 65144 (.std3Mapped, [32, 1615]) (.node (.node .leaf 65145 65145 (.mapped, [1600, 1615]) .leaf) 65146 65146 (.std3Mapped, [32, 1616]) (.node .leaf 65147 65147 (.mapped, [1600, 1616]) .leaf)))) 65148 65148 (.std3Mapped, [32, 1617]) (.node (.node (.node (.node (.node .leaf 65149 65149 (.mapped, [1600, 1617]) .leaf) 65150 65150 (.std3Mapped, [32, 1618]) .leaf) 65151 65151 (.mapped, [1600, 1618]) (.node .leaf 65152 65152 (.mapped, [1569]) .leaf)) 65153 65154 (.mapped, [1570]) (.node (.node .leaf 65155 65156 (.mapped, [1571]) .leaf) 65157 65158 (.mapped, [1572]) (.node .leaf 65159 65160 (.mapped, [1573]) .leaf))) 65161 65164 (.mapped, [1574]) (.node (.node (.node .leaf 65165 65166 (.mapped, [1575]) .leaf) 65167 65170 (.mapped, [1576]) (.node .leaf 65171 65172 (.mapped, [1577]) .leaf)) 65173 65176 (.mapped, [1578]) (.node (.node .leaf 65177 65180 (.mapped, [1579]) .leaf) 65181 65184 (.mapped, [1580]) (.node .leaf 65185 65188 (.mapped, [1581]) .leaf))))) 65189 65192 (.mapped, [1582]) (.node (.node (.node (.node (.node (.node .leaf 65193 65194 (.mapped, [1583]) .leaf) 65195 65196 (.mapped, [1584]) .leaf) 65197 65198 (.mapped, [1585]) (.node .leaf 65199 65200 (.mapped, [1586]) .leaf)) 65201 65204 (.mapped, [1587]) (.node (.node .leaf 65205 65208 (.mapped, [1588]) .leaf) 65209 65212 (.mapped, [1589]) (.node .leaf 65213 65216 (.mapped, [1590]) .leaf))) 65217 65220 (.mapped, [1591]) (.node (.node (.node .leaf 65221 65224 (.mapped, [1592]) .leaf) 65225 65228 (.mapped, [1593]) (.node .leaf 65229 65232 (.mapped, [1594]) .leaf)) 65233 65236 (.mapped, [1601]) (.node (.node .leaf 65237 65240 (.mapped, [1602]) .leaf) 65241 65244 (.mapped, [1603]) (.node .leaf 65245 65248 (.mapped, [1604]) .leaf)))) 65249 65252 (.mapped, [1605]) (.node (.node (.node (.node (.node .leaf 65253 65256 (.mapped, [1606]) .leaf) 65257 65260 (.mapped, [1607]) .leaf) 65261 65262 (.mapped, [1608]) (.node .leaf 65263 65264 (.mapped, [1609]) .leaf)) 65265 65268 (.mapped, [1610]) (.node (.node .leaf 65269 65270 (.mapped, [1604, 1570]) .leaf) 65271 65272 (.mapped, [1604, 1571]) (.node .leaf 65273 65274 (.mapped, [1604, 1573]) .leaf))) 65275 65276 (.mapped, [1604, 1575]) (.node (.node (.node .leaf 65277 65278 (.disallowed, []) .leaf) 65279 65279 (.ignored, []) (.node .leaf 65280 65280 (.disallowed, []) .leaf)) 65281 65281 (.std3Mapped, [33]) (.node (.node .leaf 65282 65282 (.std3Mapped, [34]) .leaf) 65283 65283 (.std3Mapped, [35]) (.node .leaf 65284 65284 (.std3Mapped, [36]) .leaf)))))) 65285 65285 (.std3Mapped, [37]) (.node (.node (.node (.node (.node (.node (.node .leaf 65286 65286 (.std3Mapped, [38]) .leaf) 65287 65287 (.std3Mapped, [39]) .leaf) 65288 65288 (.std3Mapped, [40]) (.node .leaf 65289 65289 (.std3Mapped, [41]) .leaf)) 65290 65290 (.std3Mapped, [42]) (.node (.node .leaf 65291 65291 (.std3Mapped, [43]) .leaf) 65292 65292 (.std3Mapped, [44]) (.node .leaf 65293 65293 (.mapped, [45]) .leaf))) 65294 65294 (.mapped, [46]) (.node (.node (.node .leaf 65295 65295 (.std3Mapped, [47]) .leaf) 65296 65296 (.mapped, [48]) (.node .leaf 65297 65297 (.mapped, [49]) .leaf)) 65298 65298 (.mapped, [50]) (.node (.node .leaf 65299 65299 (.mapped, [51]) .leaf) 65300 65300 (.mapped, [52]) (.node .leaf 65301 65301 (.mapped, [53]) .leaf)))) 65302 65302 (.mapped, [54]) (.node (.node (.node (.node (.node .leaf 65303 65303 (.mapped, [55]) .leaf) 65304 65304 (.mapped, [56]) .leaf) 65305 65305 (.mapped, [57]) (.node .leaf 65306 65306 (.std3Mapped, [58]) .leaf)) 65307 65307 (.std3Mapped, [59]) (.node (.node .leaf 65308 65308 (.std3Mapped, [60]) .leaf) 65309 65309 (.std3Mapped, [61]) (.node .leaf 65310 65310 (.std3Mapped, [62]) .leaf))) 65311 65311 (.std3Mapped, [63]) (.node (.node (.node .leaf 65312 65312 (.std3Mapped, [64]) .leaf) 65313 65313 (.mapped, [97]) (.node .leaf 65314 65314 (.mapped, [98]) .leaf)) 65315 65315 (.mapped, [99]) (.node (.node .leaf 65316 65316 (.mapped, [100]) .leaf) 65317 65317 (.mapped, [101]) (.node .leaf 65318 65318 (.mapped, [102]) .leaf))))) 65319 65319 (.mapped, [103]) (.node (.node (.node (.node (.node (.node .leaf 65320 65320 (.mapped, [104]) .leaf) 65321 65321 (.mapped, [105]) .leaf) 65322 65322 (.mapped, [106]) (.node .leaf 65323 65323 (.mapped, [107]) .leaf)) 65324 65324 (.mapped, [108]) (.node (.node .leaf 65325 65325 (.mapped, [109]) .leaf) 65326 65326 (.mapped, [110]) (.node .leaf 65327 65327 (.mapped, [111]) .leaf))) 65328 65328 (.mapped, [112]) (.node (.node (.node .leaf 65329 65329 (.mapped, [113]) .leaf) 65330 65330 (.mapped, [114]) (.node .leaf 65331 65331 (.mapped, [115]) .leaf)) 65332 65332 (.mapped, [116]) (.node (.node .leaf 65333 65333 (.mapped, [117]) .leaf) 65334 65334 (.mapped, [118]) (.node .leaf 65335 65335 (.mapped, [119]) .leaf)))) 65336 65336 (.mapped, [120]) (.node (.node (.node (.node (.node .leaf 65337 65337 (.mapped, [121]) .leaf) 65338 65338 (.mapped, [122]) .leaf) 65339 65339 (.std3Mapped, [91]) (.node .leaf 65340 65340 (.std3Mapped, [92]) .leaf)) 65341 65341 (.std3Mapped, [93]) (.node (.node .leaf 65342 65342 (.std3Mapped, [94]) .leaf) 65343 65343 (.std3Mapped, [95]) (.node .leaf 65344 65344 (.std3Mapped, [96]) .leaf))) 65345 65345 (.mapped, [97]) (.node (.node (.node .leaf 65346 65346 (.mapped, [98]) .leaf) 65347 65347 (.mapped, [99]) (.node .leaf 65348 65348 (.mapped, [100]) .leaf)) 65349 65349 (.mapped, [101]) (.node (.node .leaf 65350 65350 (.mapped, [102]) .leaf) 65351 65351 (.mapped, [103]) (.node .leaf 65352 65352 (.mapped, [104]) .leaf))))))) 65353 65353 (.mapped, [105]) (.node (.node (.node (.node (.node (.node (.node (.node .leaf 65354 65354 (.mapped, [106]) .leaf) 65355 65355 (.mapped, [107]) .leaf) 65356 65356 (.mapped, [108]) (.node .leaf 65357 65357 (.mapped, [109]) .leaf)) 65358 65358 (.mapped, [110]) (.node (.node .leaf 65359 65359 (.mapped, [111]) .leaf) 65360 65360 (.mapped, [112]) (.node .leaf 65361 65361 (.mapped, [113]) .leaf))) 65362 65362 (.mapped, [114]) (.node (.node (.node .leaf 65363 65363 (.mapped, [115]) .leaf) 65364 65364 (.mapped, [116]) (.node .leaf 65365 65365 (.mapped, [117]) .leaf)) 65366 65366 (.mapped, [118]) (.node (.node .leaf 65367 65367 (.mapped, [119]) .leaf) 65368 65368 (.mapped, [120]) (.node .leaf 65369 65369 (.mapped, [121]) .leaf)))) 65370 65370 (.mapped, [122]) (.node (.node (.node (.node (.node .leaf 65371 65371 (.std3Mapped, [123]) .leaf) 65372 65372 (.std3Mapped, [124]) .leaf) 65373 65373 (.std3Mapped, [125]) (.node .leaf 65374 65374 (.std3Mapped, [126]) .leaf)) 65375 65375 (.mapped, [10629]) (.node (.node .leaf 65376 65376 (.mapped, [10630]) .leaf) 65377 65377 (.mapped, [46]) (.node .leaf 65378 65378 (.mapped, [12300]) .leaf))) 65379 65379 (.mapped, [12301]) (.node (.node (.node .leaf 65380 65380 (.mapped, [12289]) .leaf) 65381 65381 (.mapped, [12539]) (.node .leaf 65382 65382 (.mapped, [12530]) .leaf)) 65383 65383 (.mapped, [12449]) (.node (.node .leaf 65384 65384 (.mapped, [12451]) .leaf) 65385 65385 (.mapped, [12453]) (.node .leaf 65386 65386 (.mapped, [12455]) .leaf))))) 65387 65387 (.mapped, [12457]) (.node (.node (.node (.node (.node (.node .leaf 65388 65388 (.mapped, [12515]) .leaf) 65389 65389 (.mapped, [12517]) .leaf) 65390 65390 (.mapped, [12519]) (.node .leaf 65391 65391 (.mapped, [12483]) .leaf)) 65392 65392 (.mapped, [12540]) (.node (.node .leaf 65393 65393 (.mapped, [12450]) .leaf) 65394 65394 (.mapped, [12452]) (.node .leaf 65395 65395 (.mapped, [12454]) .leaf))) 65396 65396 (.mapped, [12456]) (.node (.node (.node .leaf 65397 65397 (.mapped, [12458]) .leaf) 65398 65398 (.mapped, [12459]) (.node .leaf 65399 65399 (.mapped, [12461]) .leaf)) 65400 65400 (.mapped, [12463]) (.node (.node .leaf 65401 65401 (.mapped, [12465]) .leaf) 65402 65402 (.mapped, [12467]) (.node .leaf 65403 65403 (.mapped, [12469]) .leaf)))) 65404 65404 (.mapped, [12471]) (.node (.node (.node (.node (.node .leaf 65405 65405 (.mapped, [12473]) .leaf) 65406 65406 (.mapped, [12475]) .leaf) 65407 65407 (.mapped, [12477]) (.node .leaf 65408 65408 (.mapped, [12479]) .leaf)) 65409 65409 (.mapped, [12481]) (.node (.node .leaf 65410 65410 (.mapped, [12484]) .leaf) 65411 65411 (.mapped, [12486]) (.node .leaf 65412 65412 (.mapped, [12488]) .leaf))) 65413 65413 (.mapped, [12490]) (.node (.node (.node .leaf 65414 65414 (.mapped, [12491]) .leaf) 65415 65415 (.mapped, [12492]) (.node .leaf 65416 65416 (.mapped, [12493]) .leaf)) 65417 65417 (.mapped, [12494]) (.node (.node .leaf 65418 65418 (.mapped, [12495]) .leaf) 65419 65419 (.mapped, [12498]) (.node .leaf 65420 65420 (.mapped, [12501]) .leaf)))))) 65421 65421 (.mapped, [12504]) (.node (.node (.node (.node (.node (.node (.node .leaf 65422 65422 (.mapped, [12507]) .leaf) 65423 65423 (.mapped, [12510]) .leaf) 65424 65424 (.mapped, [12511]) (.node .leaf 65425 65425 (.mapped, [12512]) .leaf)) 65426 65426 (.mapped, [12513]) (.node (.node .leaf 65427 65427 (.mapped, [12514]) .leaf) 65428 65428 (.mapped, [12516]) (.node .leaf 65429 65429 (.mapped, [12518]) .leaf))) 65430 65430 (.mapped, [12520]) (.node (.node (.node .leaf 65431 65431 (.mapped, [12521]) .leaf) 65432 65432 (.mapped, [12522]) (.node .leaf 65433 65433 (.mapped, [12523]) .leaf)) 65434 65434 (.mapped, [12524]) (.node (.node .leaf 65435 65435 (.mapped, [12525]) .leaf) 65436 65436 (.mapped, [12527]) (.node .leaf 65437 65437 (.mapped, [12531]) .leaf)))) 65438 65438 (.mapped, [12441]) (.node (.node (.node (.node (.node .leaf 65439 65439 (.mapped, [12442]) .leaf) 65440 65440 (.disallowed, []) .leaf) 65441 65441 (.mapped, [4352]) (.node .leaf 65442 65442 (.mapped, [4353]) .leaf)) 65443 65443 (.mapped, [4522]) (.node (.node .leaf 65444 65444 (.mapped, [4354]) .leaf) 65445 65445 (.mapped, [4524]) (.node .leaf 65446 65446 (.mapped, [4525]) .leaf))) 65447 65447 (.mapped, [4355]) (.node (.node (.node .leaf 65448 65448 (.mapped, [4356]) .leaf) 65449 65449 (.mapped, [4357]) (.node .leaf 65450 65450 (.mapped, [4528]) .leaf)) 65451 65451 (.mapped, [4529]) (.node (.node .leaf 65452 65452 (.mapped, [4530]) .leaf) 65453 65453 (.mapped, [4531]) (.node .leaf 65454 65454 (.mapped, [4532]) .leaf))))) 65455 65455 (.mapped, [4533]) (.node (.node (.node (.node (.node (.node .leaf 65456 65456 (.mapped, [4378]) .leaf) 65457 65457 (.mapped, [4358]) .leaf) 65458 65458 (.mapped, [4359]) (.node .leaf 65459 65459 (.mapped, [4360]) .leaf)) 65460 65460 (.mapped, [4385]) (.node (.node .leaf 65461 65461 (.mapped, [4361]) .leaf) 65462 65462 (.mapped, [4362]) (.node .leaf 65463 65463 (.mapped, [4363]) .leaf))) 65464 65464 (.mapped, [4364]) (.node (.node (.node .leaf 65465 65465 (.mapped, [4365]) .leaf) 65466 65466 (.mapped, [4366]) (.node .leaf 65467 65467 (.mapped, [4367]) .leaf)) 65468 65468 (.mapped, [4368]) (.node (.node .leaf 65469 65469 (.mapped, [4369]) .leaf) 65470 65470 (.mapped, [4370]) (.node .leaf 65471 65473 (.disallowed, []) .leaf)))) 65474 65474 (.mapped, [4449]) (.node (.node (.node (.node (.node .leaf 65475 65475 (.mapped, [4450]) .leaf) 65476 65476 (.mapped, [4451]) .leaf) 65477 65477 (.mapped, [4452]) (.node .leaf 65478 65478 (.mapped, [4453]) .leaf)) 65479 65479 (.mapped, [4454]) (.node (.node .leaf 65480 65481 (.disallowed, []) .leaf) 65482 65482 (.mapped, [4455]) (.node .leaf 65483 65483 (.mapped, [4456]) .leaf))) 65484 65484 (.mapped, [4457]) (.node (.node (.node .leaf 65485 65485 (.mapped, [4458]) .leaf) 65486 65486 (.mapped, [4459]) (.node .leaf 65487 65487 (.mapped, [4460]) .leaf)) 65488 65489 (.disallowed, []) (.node (.node .leaf 65490 65490 (.mapped, [4461]) .leaf) 65491 65491 (.mapped, [4462]) (.node .leaf 65492 65492 (.mapped, [4463]) .leaf))))))))

def idnaTable21 : RTree (Status × List Nat) := (.node (.node (.node (.node (.node (.node (.node (.node (.node .leaf 65494 65494 (.mapped, [4465]) .leaf) 65495 65495 (.mapped, [4466]) .leaf) 65496 65497 (.disallowed, []) (.node .leaf 65498 65498 (.mapped, [4467]) .leaf)) 65499 65499 (.mapped, [4468]) (.node (.node .leaf 65500 65500 (.mapped, [4469]) .leaf) 65501 65503 (.disallowed, []) (.node .leaf 65504 65504 (.mapped, [162]) .leaf))) 65505 65505 (.mapped, [163]) (.node (.node (.node .leaf 65506 65506 (.mapped, [172]) .leaf) 65507 65507 (.std3Mapped, [32, 772]) (.node .leaf 65508 65508 (.mapped, [166]) .leaf)) 65509 65509 (.mapped, [165]) (.node (.node .leaf 65510 65510 (.mapped, [8361]) .leaf) 65511 65511 (.disallowed, []) (.node .leaf 65512 65512 (.mapped, [9474]) .leaf)))) 65513 65513 (.mapped, [8592]) (.node (.node (.node (.node (.node .leaf 65514 65514 (.mapped, [8593]) .leaf) 65515 65515 (.mapped, [8594]) .leaf) 65516 65516 (.mapped, [8595]) (.node .leaf 65517 65517 (.mapped, [9632]) .leaf)) 65518 65518 (.mapped, [9675]) (.node (.node .leaf 65519 65528 (.disallowed, []) .leaf) 65529 65531 (.disallowed, []) (.node .leaf 65532 65532 (.disallowed, []) .leaf))) 65533 65533 (.disallowed, []) (.node (.node (.node .leaf 65534 65535 (.disallowed, []) .leaf) 65536 65547 (.valid, []) (.node .leaf 65548 65548 (.disallowed, []) .leaf)) 65549 65574 (.valid, []) (.node (.node .leaf 65575 65575 (.disallowed, []) .leaf) 65576 65594 (.valid, []) (.node .leaf 65595 65595 (.disallowed, []) .leaf))))) 65596 65597 (.valid, []) (.node (.node (.node (.node (.node (.node .leaf 65598 65598 (.disallowed, []) .leaf) 65599 65613 (.valid, []) .leaf) 65614 65615 (.disallowed, []) (.node .leaf 65616 65629 (.valid, []) .leaf)) 65630 65663 (.disallowed, []) (.node (.node .leaf 65664 65786 (.valid, []) .leaf) 65787 65791 (.disallowed, []) (.node .leaf 65792 65794 (.valid, []) .leaf))) 65795 65798 (.disallowed, []) (.node (.node (.node .leaf 65799 65843 (.valid, []) .leaf) 65844 65846 (.disallowed, []) (.node .leaf 65847 65855 (.valid, []) .leaf)) 65856 65930 (.valid, []) (.node (.node .leaf 65931 65932 (.valid, []) .leaf) 65933 65934 (.valid, []) (.node .leaf 65935 65935 (.disallowed, []) .leaf)))) 65936 65947 (.valid, []) (.node (.node (.node (.node (.node .leaf 65948 65948 (.valid, []) .leaf) 65949 65951 (.disallowed, []) .leaf) 65952 65952 (.valid, []) (.node .leaf 65953 65999 (.disallowed, []) .leaf)) 66000 66044 (.valid, []) (.node (.node .leaf 66045 66045 (.valid, []) .leaf) 66046 66175 (.disallowed, []) (.node .leaf 66176 66204 (.valid, []) .leaf))) 66205 66207 (.disallowed, []) (.node (.node (.node .leaf 66208 66256 (.valid, []) .leaf) 66257 66271 (.disallowed, []) (.node .leaf 66272 66272 (.valid, []) .leaf)) 66273 66299 (.valid, []) (.node (.node .leaf 66300 66303 (.disallowed, []) .leaf) 66304 66334 (.valid, []) (.node .leaf 66335 66335 (.valid, []) .leaf)))))) 66336 66339 (.valid, []) (.node (.node (.node (.node (.node (.node (.node .leaf 66340 66348 (.disallowed, []) .leaf) 66349 66351 (.valid, []) .leaf) 66352 66368 (.valid, []) (.node .leaf 66369 66369 (.valid, []) .leaf)) 66370 66377 (.valid, []) (.node (.node .leaf 66378 66378 (.valid, []) .leaf) 66379 66383 (.disallowed, []) (.node .leaf 66384 66426 (.valid, []) .leaf))) 66427 66431 (.disallowed, []) (.node (.node (.node .leaf 66432 66461 (.valid, []) .leaf) 66462 66462 (.disallowed, []) (.node .leaf 66463 66463 (.valid, []) .leaf)) 66464 66499 (.valid, []) (.node (.node .leaf 66500 66503 (.disallowed, []) .leaf) 66504 66511 (.valid, []) (.node .leaf 66512 66517 (.valid, []) .leaf)))) 66518 66559 (.disallowed, []) (.node (.node (.node (.node (.node .leaf 66560 66560 (.mapped, [66600]) .leaf) 66561 66561 (.mapped, [66601]) .leaf) 66562 66562 (.mapped, [66602]) (.node .leaf 66563 66563 (.mapped, [66603]) .leaf)) 66564 66564 (.mapped, [66604]) (.node (.node .leaf 66565 66565 (.mapped, [66605]) .leaf) 66566 66566 (.mapped, [66606]) (.node .leaf 66567 66567 (.mapped, [66607]) .leaf))) 66568 66568 (.mapped, [66608]) (.node (.node (.node .leaf 66569 66569 (.mapped, [66609]) .leaf) 66570 66570 (.mapped, [66610]) (.node .leaf 66571 66571 (.mapped, [66611]) .leaf)) 66572 66572 (.mapped, [66612]) (.node (.node .leaf 66573 66573 (.mapped, [66613]) .leaf) 66574 66574 (.mapped, [66614]) (.node .leaf 66575 66575 (.mapped, [66615]) .leaf))))) 66576 66576 (.mapped, [66616]) (.node (.node (.node (.node (.node (.node .leaf 66577 66577 (.mapped, [66617]) .leaf) 66578 66578 (.mapped, [66618]) .leaf) 66579 66579 (.mapped, [66619]) (.node .leaf 66580 66580 (.mapped, [66620]) .leaf)) 66581 66581 (.mapped, [66621]) (.node (.node .leaf 66582 66582 (.mapped, [66622]) .leaf) 66583 66583 (.mapped, [66623]) (.node .leaf 66584 66584 (.mapped, [66624]) .leaf))) 66585 66585 (.mapped, [66625]) (.node (.node (.node .leaf 66586 66586 (.mapped, [66626]) .leaf) 66587 66587 (.mapped, [66627]) (.node .leaf 66588 66588 (.mapped, [66628]) .leaf)) 66589 66589 (.mapped, [66629]) (.node (.node .leaf 66590 66590 (.mapped, [66630]) .leaf) 66591 66591 (.mapped, [66631]) (.node .leaf 66592 66592 (.mapped, [66632]) .leaf)))) 66593 66593 (.mapped, [66633]) (.node (.node (.node (.node (.node .leaf 66594 66594 (.mapped, [66634]) .leaf) 66595 66595 (.mapped, [66635]) .leaf) 66596 66596 (.mapped, [66636]) (.node .leaf 66597 66597 (.mapped, [66637]) .leaf)) 66598 66598 (.mapped, [66638]) (.node (.node .leaf 66599 66599 (.mapped, [66639]) .leaf) 66600 66637 (.valid, []) (.node .leaf 66638 66717 (.valid, []) .leaf))) 66718 66719 (.disallowed, []) (.node (.node (.node .leaf 66720 66729 (.valid, []) .leaf) 66730 66735 (.disallowed, []) (.node .leaf 66736 66736 (.mapped, [66776]) .leaf)) 66737 66737 (.mapped, [66777]) (.node (.node .leaf 66738 66738 (.mapped, [66778]) .leaf) 66739 66739 (.mapped, [66779]) (.node .leaf 66740 66740 (.mapped, [66780]) .leaf))))))) 66741 66741 (.mapped, [66781]) (.node (.node (.node (.node (.node (.node (.node (.node .leaf 66742 66742 (.mapped, [66782]) .leaf) 66743 66743 (.mapped, [66783]) .leaf) 66744 66744 (.mapped, [66784]) (.node .leaf 66745 66745 (.mapped, [66785]) .leaf)) 66746 66746 (.mapped, [66786]) (.node (.node .leaf 66747 66747 (.mapped, [66787]) .leaf) 66748 66748 (.mapped, [66788]) (.node .leaf 66749 66749 (.mapped, [66789]) .leaf))) 66750 66750 (.mapped, [66790]) (.node (.node (.node .leaf 66751 66751 (.mapped, [66791]) .leaf) 66752 66752 (.mapped, [66792]) (.node .leaf 66753 66753 (.mapped, [66793]) .leaf)) 66754 66754 (.mapped, [66794]) (.node (.node .leaf 66755 66755 (.mapped, [66795]) .leaf) 66756 66756 (.mapped, [66796]) (.node .leaf 66757 66757 (.mapped, [66797]) .leaf)))) 66758 66758 (.mapped, [66798]) (.node (.node (.node (.node (.node .leaf 66759 66759 (.mapped, [66799]) .leaf) 66760 66760 (.mapped, [66800]) .leaf) 66761 66761 (.mapped, [66801]) (.node .leaf 66762 66762 (.mapped, [66802]) .leaf)) 66763 66763 (.mapped, [66803]) (.node (.node .leaf 66764 66764 (.mapped, [66804]) .leaf) 66765 66765 (.mapped, [66805]) (.node .leaf 66766 66766 (.mapped, [66806]) .leaf))) 66767 66767 (.mapped, [66807]) (.node (.node (.node .leaf 66768 66768 (.mapped, [66808]) .leaf) 66769 66769 (.mapped, [66809]) (.node .leaf 66770 66770 (.mapped, [66810]) .leaf)) 66771 66771 (.mapped, [66811]) (.node (.node .leaf 66772 66775 (.disallowed, []) .leaf) 66776 66811 (.valid, []) (.node .leaf 66812 66815 (.disallowed, []) .leaf))))) 66816 66855 (.valid, []) (.node (.node (.node (.node (.node (.node .leaf 66856 66863 (.disallowed, []) .leaf) 66864 66915 (.valid, []) .leaf) 66916 66926 (.disallowed, []) (.node .leaf 66927 66927 (.valid, []) .leaf)) 66928 67071 (.disallowed, []) (.node (.node .leaf 67072 67382 (.valid, []) .leaf) 67383 67391 (.disallowed, []) (.node .leaf 67392 67413 (.valid, []) .leaf))) 67414 67423 (.disallowed, []) (.node (.node (.node .leaf 67424 67431 (.valid, []) .leaf) 67432 67583 (.disallowed, []) (.node .leaf 67584 67589 (.valid, []) .leaf)) 67590 67591 (.disallowed, []) (.node (.node .leaf 67592 67592 (.valid, []) .leaf) 67593 67593 (.disallowed, []) (.node .leaf 67594 67637 (.valid, []) .leaf)))) 67638 67638 (.disallowed, []) (.node (.node (.node (.node (.node .leaf 67639 67640 (.valid, []) .leaf) 67641 67643 (.disallowed, []) .leaf) 67644 67644 (.valid, []) (.node .leaf 67645 67646 (.disallowed, []) .leaf)) 67647 67647 (.valid, []) (.node (.node .leaf 67648 67669 (.valid, []) .leaf) 67670 67670 (.disallowed, []) (.node .leaf 67671 67679 (.valid, []) .leaf))) 67680 67702 (.valid, []) (.node (.node (.node .leaf 67703 67711 (.valid, []) .leaf) 67712 67742 (.valid, []) (.node .leaf 67743 67750 (.disallowed, []) .leaf)) 67751 67759 (.valid, []) (.node (.node .leaf 67760 67807 (.disallowed, []) .leaf) 67808 67826 (.valid, []) (.node .leaf 67827 67827 (.disallowed, []) .leaf)))))) 67828 67829 (.valid, []) (.node (.node (.node (.node (.node (.node (.node .leaf 67830 67834 (.disallowed, []) .leaf) 67835 67839 (.valid, []) .leaf) 67840 67861 (.valid, []) (.node .leaf 67862 67865 (.valid, []) .leaf)) 67866 67867 (.valid, []) (.node (.node .leaf 67868 67870 (.disallowed, []) .leaf) 67871 67871 (.valid, []) (.node .leaf 67872 67897 (.valid, []) .leaf))) 67898 67902 (.disallowed, []) (.node (.node (.node .leaf 67903 67903 (.valid, []) .leaf) 67904 67967 (.disallowed, []) (.node .leaf 67968 68023 (.valid, []) .leaf)) 68024 68027 (.disallowed, []) (.node (.node .leaf 68028 68029 (.valid, []) .leaf) 68030 68031 (.valid, []) (.node .leaf 68032 68047 (.valid, []) .leaf)))) 68048 68049 (.disallowed, []) (.node (.node (.node (.node (.node .leaf 68050 68095 (.valid, []) .leaf) 68096 68099 (.valid, []) .leaf) 68100 68100 (.disallowed, []) (.node .leaf 68101 68102 (.valid, []) .leaf)) 68103 68107 (.disallowed, []) (.node (.node .leaf 68108 68115 (.valid, []) .leaf) 68116 68116 (.disallowed, []) (.node .leaf 68117 68119 (.valid, []) .leaf))) 68120 68120 (.disallowed, []) (.node (.node (.node .leaf 68121 68147 (.valid, []) .leaf) 68148 68149 (.valid, []) (.node .leaf 68150 68151 (.disallowed, []) .leaf)) 68152 68154 (.valid, []) (.node (.node .leaf 68155 68158 (.disallowed, []) .leaf) 68159 68159 (.valid, []) (.node .leaf 68160 68167 (.valid, []) .leaf))))) 68168 68168 (.valid, []) (.node (.node (.node (.node (.node (.node .leaf 68169 68175 (.disallowed, []) .leaf) 68176 68184 (.valid, []) .leaf) 68185 68191 (.disallowed, []) (.node .leaf 68192 68220 (.valid, []) .leaf)) 68221 68223 (.valid, []) (.node (.node .leaf 68224 68252 (.valid, []) .leaf) 68253 68255 (.valid, []) (.node .leaf 68256 68287 (.disallowed, []) .leaf))) 68288 68295 (.valid, []) (.node (.node (.node .leaf 68296 68296 (.valid, []) .leaf) 68297 68326 (.valid, []) (.node .leaf 68327 68330 (.disallowed, []) .leaf)) 68331 68342 (.valid, []) (.node (.node .leaf 68343 68351 (.disallowed, []) .leaf) 68352 68405 (.valid, []) (.node .leaf 68406 68408 (.disallowed, []) .leaf)))) 68409 68415 (.valid, []) (.node (.node (.node (.node (.node .leaf 68416 68437 (.valid, []) .leaf) 68438 68439 (.disallowed, []) .leaf) 68440 68447 (.valid, []) (.node .leaf 68448 68466 (.valid, []) .leaf)) 68467 68471 (.disallowed, []) (.node (.node .leaf 68472 68479 (.valid, []) .leaf) 68480 68497 (.valid, []) (.node .leaf 68498 68504 (.disallowed, []) .leaf))) 68505 68508 (.valid, []) (.node (.node (.node .leaf 68509 68520 (.disallowed, []) .leaf) 68521 68527 (.valid, []) (.node .leaf 68528 68607 (.disallowed, []) .leaf)) 68608 68680 (.valid, []) (.node (.node .leaf 68681 68735 (.disallowed, []) .leaf) 68736 68736 (.mapped, [68800]) (.node .leaf 68737 68737 (.mapped, [68801]) .leaf))))))))

def idnaTable22 : RTree (Status × List Nat) := (.node (.node (.node (.node (.node (.node (.node (.node (.node .leaf 68739 68739 (.mapped, [68803]) .leaf) 68740 68740 (.mapped, [68804]) .leaf) 68741 68741 (.mapped, [68805]) (.node .leaf 68742 68742 (.mapped, [68806]) .leaf)) 68743 68743 (.mapped, [68807]) (.node (.node .leaf 68744 68744 (.mapped, [68808]) .leaf) 68745 68745 (.mapped, [68809]) (.node .leaf 68746 68746 (.mapped, [68810]) .leaf))) 68747 68747 (.mapped, [68811]) (.node (.node (.node .leaf 68748 68748 (.mapped, [68812]) .leaf) 68749 68749 (.mapped, [68813]) (.node .leaf 68750 68750 (.mapped, [68814]) .leaf)) 68751 68751 (.mapped, [68815]) (.node (.node .leaf 68752 68752 (.mapped, [68816]) .leaf) 68753 68753 (.mapped, [68817]) (.node .leaf 68754 68754 (.mapped, [68818]) .leaf)))) 68755 68755 (.mapped, [68819]) (.node (.node (.node (.node (.node .leaf 68756 68756 (.mapped, [68820]) .leaf) 68757 68757 (.mapped, [68821]) .leaf) 68758 68758 (.mapped, [68822]) (.node .leaf 68759 68759 (.mapped, [68823]) .leaf)) 68760 68760 (.mapped, [68824]) (.node (.node .leaf 68761 68761 (.mapped, [68825]) .leaf) 68762 68762 (.mapped, [68826]) (.node .leaf 68763 68763 (.mapped, [68827]) .leaf))) 68764 68764 (.mapped, [68828]) (.node (.node (.node .leaf 68765 68765 (.mapped, [68829]) .leaf) 68766 68766 (.mapped, [68830]) (.node .leaf 68767 68767 (.mapped, [68831]) .leaf)) 68768 68768 (.mapped, [68832]) (.node (.node .leaf 68769 68769 (.mapped, [68833]) .leaf) 68770 68770 (.mapped, [68834]) (.node .leaf 68771 68771 (.mapped, [68835]) .leaf))))) 68772 68772 (.mapped, [68836]) (.node (.node (.node (.node (.node (.node .leaf 68773 68773 (.mapped, [68837]) .leaf) 68774 68774 (.mapped, [68838]) .leaf) 68775 68775 (.mapped, [68839]) (.node .leaf 68776 68776 (.mapped, [68840]) .leaf)) 68777 68777 (.mapped, [68841]) (.node (.node .leaf 68778 68778 (.mapped, [68842]) .leaf) 68779 68779 (.mapped, [68843]) (.node .leaf 68780 68780 (.mapped, [68844]) .leaf))) 68781 68781 (.mapped, [68845]) (.node (.node (.node .leaf 68782 68782 (.mapped, [68846]) .leaf) 68783 68783 (.mapped, [68847]) (.node .leaf 68784 68784 (.mapped, [68848]) .leaf)) 68785 68785 (.mapped, [68849]) (.node (.node .leaf 68786 68786 (.mapped, [68850]) .leaf) 68787 68799 (.disallowed, []) (.node .leaf 68800 68850 (.valid, []) .leaf)))) 68851 68857 (.disallowed, []) (.node (.node (.node (.node (.node .leaf 68858 68863 (.valid, []) .leaf) 68864 68903 (.valid, []) .leaf) 68904 68911 (.disallowed, []) (.node .leaf 68912 68921 (.valid, []) .leaf)) 68922 69215 (.disallowed, []) (.node (.node .leaf 69216 69246 (.valid, []) .leaf) 69247 69247 (.disallowed, []) (.node .leaf 69248 69289 (.valid, []) .leaf))) 69290 69290 (.disallowed, []) (.node (.node (.node .leaf 69291 69292 (.valid, []) .leaf) 69293 69293 (.valid, []) (.node .leaf 69294 69295 (.disallowed, []) .leaf)) 69296 69297 (.valid, []) (.node (.node .leaf 69298 69375 (.disallowed, []) .leaf) 69376 69404 (.valid, []) (.node .leaf 69405 69414 (.valid, []) .leaf)))))) 69415 69415 (.valid, []) (.node (.node (.node (.node (.node (.node (.node .leaf 69416 69423 (.disallowed, []) .leaf) 69424 69456 (.valid, []) .leaf) 69457 69465 (.valid, []) (.node .leaf 69466 69551 (.disallowed, []) .leaf)) 69552 69572 (.valid, []) (.node (.node .leaf 69573 69579 (.valid, []) .leaf) 69580 69599 (.disallowed, []) (.node .leaf 69600 69622 (.valid, []) .leaf))) 69623 69631 (.disallowed, []) (.node (.node (.node .leaf 69632 69702 (.valid, []) .leaf) 69703 69709 (.valid, []) (.node .leaf 69710 69713 (.disallowed, []) .leaf)) 69714 69733 (.valid, []) (.node (.node .leaf 69734 69743 (.valid, []) .leaf) 69744 69758 (.disallowed, []) (.node .leaf 69759 69759 (.valid, []) .leaf)))) 69760 69818 (.valid, []) (.node (.node (.node (.node (.node .leaf 69819 69820 (.valid, []) .leaf) 69821 69821 (.disallowed, []) .leaf) 69822 69825 (.valid, []) (.node .leaf 69826 69836 (.disallowed, []) .leaf)) 69837 69837 (.disallowed, []) (.node (.node .leaf 69838 69839 (.disallowed, []) .leaf) 69840 69864 (.valid, []) (.node .leaf 69865 69871 (.disallowed, []) .leaf))) 69872 69881 (.valid, []) (.node (.node (.node .leaf 69882 69887 (.disallowed, []) .leaf) 69888 69940 (.valid, []) (.node .leaf 69941 69941 (.disallowed, []) .leaf)) 69942 69951 (.valid, []) (.node (.node .leaf 69952 69955 (.valid, []) .leaf) 69956 69958 (.valid, []) (.node .leaf 69959 69959 (.valid, []) .leaf))))) 69960 69967 (.disallowed, []) (.node (.node (.node (.node (.node (.node .leaf 69968 70003 (.valid, []) .leaf) 70004 70005 (.valid, []) .leaf) 70006 70006 (.valid, []) (.node .leaf 70007 70015 (.disallowed, []) .leaf)) 70016 70084 (.valid, []) (.node (.node .leaf 70085 70088 (.valid, []) .leaf) 70089 70092 (.valid, []) (.node .leaf 70093 70093 (.valid, []) .leaf))) 70094 70095 (.valid, []) (.node (.node (.node .leaf 70096 70105 (.valid, []) .leaf) 70106 70106 (.valid, []) (.node .leaf 70107 70107 (.valid, []) .leaf)) 70108 70108 (.valid, []) (.node (.node .leaf 70109 70111 (.valid, []) .leaf) 70112 70112 (.disallowed, []) (.node .leaf 70113 70132 (.valid, []) .leaf)))) 70133 70143 (.disallowed, []) (.node (.node (.node (.node (.node .leaf 70144 70161 (.valid, []) .leaf) 70162 70162 (.disallowed, []) .leaf) 70163 70199 (.valid, []) (.node .leaf 70200 70205 (.valid, []) .leaf)) 70206 70206 (.valid, []) (.node (.node .leaf 70207 70271 (.disallowed, []) .leaf) 70272 70278 (.valid, []) (.node .leaf 70279 70279 (.disallowed, []) .leaf))) 70280 70280 (.valid, []) (.node (.node (.node .leaf 70281 70281 (.disallowed, []) .leaf) 70282 70285 (.valid, []) (.node .leaf 70286 70286 (.disallowed, []) .leaf)) 70287 70301 (.valid, []) (.node (.node .leaf 70302 70302 (.disallowed, []) .leaf) 70303 70312 (.valid, []) (.node .leaf 70313 70313 (.valid, []) .leaf))))))) 70314 70319 (.disallowed, []) (.node (.node (.node (.node (.node (.node (.node (.node .leaf 70320 70378 (.valid, []) .leaf) 70379 70383 (.disallowed, []) .leaf) 70384 70393 (.valid, []) (.node .leaf 70394 70399 (.disallowed, []) .leaf)) 70400 70400 (.valid, []) (.node (.node .leaf 70401 70403 (.valid, []) .leaf) 70404 70404 (.disallowed, []) (.node .leaf 70405 70412 (.valid, []) .leaf))) 70413 70414 (.disallowed, []) (.node (.node (.node .leaf 70415 70416 (.valid, []) .leaf) 70417 70418 (.disallowed, []) (.node .leaf 70419 70440 (.valid, []) .leaf)) 70441 70441 (.disallowed, []) (.node (.node .leaf 70442 70448 (.valid, []) .leaf) 70449 70449 (.disallowed, []) (.node .leaf 70450 70451 (.valid, []) .leaf)))) 70452 70452 (.disallowed, []) (.node (.node (.node (.node (.node .leaf 70453 70457 (.valid, []) .leaf) 70458 70458 (.disallowed, []) .leaf) 70459 70459 (.valid, []) (.node .leaf 70460 70468 (.valid, []) .leaf)) 70469 70470 (.disallowed, []) (.node (.node .leaf 70471 70472 (.valid, []) .leaf) 70473 70474 (.disallowed, []) (.node .leaf 70475 70477 (.valid, []) .leaf))) 70478 70479 (.disallowed, []) (.node (.node (.node .leaf 70480 70480 (.valid, []) .leaf) 70481 70486 (.disallowed, []) (.node .leaf 70487 70487 (.valid, []) .leaf)) 70488 70492 (.disallowed, []) (.node (.node .leaf 70493 70499 (.valid, []) .leaf) 70500 70501 (.disallowed, []) (.node .leaf 70502 70508 (.valid, []) .leaf))))) 70509 70511 (.disallowed, []) (.node (.node (.node (.node (.node (.node .leaf 70512 70516 (.valid, []) .leaf) 70517 70655 (.disallowed, []) .leaf) 70656 70730 (.valid, []) (.node .leaf 70731 70735 (.valid, []) .leaf)) 70736 70745 (.valid, []) (.node (.node .leaf 70746 70746 (.valid, []) .leaf) 70747 70747 (.valid, []) (.node .leaf 70748 70748 (.disallowed, []) .leaf))) 70749 70749 (.valid, []) (.node (.node (.node .leaf 70750 70750 (.valid, []) .leaf) 70751 70751 (.valid, []) (.node .leaf 70752 70753 (.valid, []) .leaf)) 70754 70783 (.disallowed, []) (.node (.node .leaf 70784 70853 (.valid, []) .leaf) 70854 70854 (.valid, []) (.node .leaf 70855 70855 (.valid, []) .leaf)))) 70856 70863 (.disallowed, []) (.node (.node (.node (.node (.node .leaf 70864 70873 (.valid, []) .leaf) 70874 71039 (.disallowed, []) .leaf) 71040 71093 (.valid, []) (.node .leaf 71094 71095 (.disallowed, []) .leaf)) 71096 71104 (.valid, []) (.node (.node .leaf 71105 71113 (.valid, []) .leaf) 71114 71127 (.valid, []) (.node .leaf 71128 71133 (.valid, []) .leaf))) 71134 71167 (.disallowed, []) (.node (.node (.node .leaf 71168 71232 (.valid, []) .leaf) 71233 71235 (.valid, []) (.node .leaf 71236 71236 (.valid, []) .leaf)) 71237 71247 (.disallowed, []) (.node (.node .leaf 71248 71257 (.valid, []) .leaf) 71258 71263 (.disallowed, []) (.node .leaf 71264 71276 (.valid, []) .leaf)))))) 71277 71295 (.disallowed, []) (.node (.node (.node (.node (.node (.node (.node .leaf 71296 71351 (.valid, []) .leaf) 71352 71352 (.valid, []) .leaf) 71353 71359 (.disallowed, []) (.node .leaf 71360 71369 (.valid, []) .leaf)) 71370 71423 (.disallowed, []) (.node (.node .leaf 71424 71449 (.valid, []) .leaf) 71450 71450 (.valid, []) (.node .leaf 71451 71452 (.disallowed, []) .leaf))) 71453 71467 (.valid, []) (.node (.node (.node .leaf 71468 71471 (.disallowed, []) .leaf) 71472 71481 (.valid, []) (.node .leaf 71482 71487 (.valid, []) .leaf)) 71488 71679 (.disallowed, []) (.node (.node .leaf 71680 71738 (.valid, []) .leaf) 71739 71739 (.valid, []) (.node .leaf 71740 71839 (.disallowed, []) .leaf)))) 71840 71840 (.mapped, [71872]) (.node (.node (.node (.node (.node .leaf 71841 71841 (.mapped, [71873]) .leaf) 71842 71842 (.mapped, [71874]) .leaf) 71843 71843 (.mapped, [71875]) (.node .leaf 71844 71844 (.mapped, [71876]) .leaf)) 71845 71845 (.mapped, [71877]) (.node (.node .leaf 71846 71846 (.mapped, [71878]) .leaf) 71847 71847 (.mapped, [71879]) (.node .leaf 71848 71848 (.mapped, [71880]) .leaf))) 71849 71849 (.mapped, [71881]) (.node (.node (.node .leaf 71850 71850 (.mapped, [71882]) .leaf) 71851 71851 (.mapped, [71883]) (.node .leaf 71852 71852 (.mapped, [71884]) .leaf)) 71853 71853 (.mapped, [71885]) (.node (.node .leaf 71854 71854 (.mapped, [71886]) .leaf) 71855 71855 (.mapped, [71887]) (.node .leaf 71856 71856 (.mapped, [71888]) .leaf))))) 71857 71857 (.mapped, [71889]) (.node (.node (.node (.node (.node (.node .leaf 71858 71858 (.mapped, [71890]) .leaf) 71859 71859 (.mapped, [71891]) .leaf) 71860 71860 (.mapped, [71892]) (.node .leaf 71861 71861 (.mapped, [71893]) .leaf)) 71862 71862 (.mapped, [71894]) (.node (.node .leaf 71863 71863 (.mapped, [71895]) .leaf) 71864 71864 (.mapped, [71896]) (.node .leaf 71865 71865 (.mapped, [71897]) .leaf))) 71866 71866 (.mapped, [71898]) (.node (.node (.node .leaf 71867 71867 (.mapped, [71899]) .leaf) 71868 71868 (.mapped, [71900]) (.node .leaf 71869 71869 (.mapped, [71901]) .leaf)) 71870 71870 (.mapped, [71902]) (.node (.node .leaf 71871 71871 (.mapped, [71903]) .leaf) 71872 71913 (.valid, []) (.node .leaf 71914 71922 (.valid, []) .leaf)))) 71923 71934 (.disallowed, []) (.node (.node (.node (.node (.node .leaf 71935 71935 (.valid, []) .leaf) 71936 71942 (.valid, []) .leaf) 71943 71944 (.disallowed, []) (.node .leaf 71945 71945 (.valid, []) .leaf)) 71946 71947 (.disallowed, []) (.node (.node .leaf 71948 71955 (.valid, []) .leaf) 71956 71956 (.disallowed, []) (.node .leaf 71957 71958 (.valid, []) .leaf))) 71959 71959 (.disallowed, []) (.node (.node (.node .leaf 71960 71989 (.valid, []) .leaf) 71990 71990 (.disallowed, []) (.node .leaf 71991 71992 (.valid, []) .leaf)) 71993 71994 (.disallowed, []) (.node (.node .leaf 71995 72003 (.valid, []) .leaf) 72004 72006 (.valid, []) (.node .leaf 72007 72015 (.disallowed, []) .leaf))))))))

def idnaTable23 : RTree (Status × List Nat) := (.node (.node (.node (.node (.node (.node (.node (.node (.node .leaf 72026 72095 (.disallowed, []) .leaf) 72096 72103 (.valid, []) .leaf) 72104 72105 (.disallowed, []) (.node .leaf 72106 72151 (.valid, []) .leaf)) 72152 72153 (.disallowed, []) (.node (.node .leaf 72154 72161 (.valid, []) .leaf) 72162 72162 (.valid, []) (.node .leaf 72163 72164 (.valid, []) .leaf))) 72165 72191 (.disallowed, []) (.node (.node (.node .leaf 72192 72254 (.valid, []) .leaf) 72255 72262 (.valid, []) (.node .leaf 72263 72263 (.valid, []) .leaf)) 72264 72271 (.disallowed, []) (.node (.node .leaf 72272 72323 (.valid, []) .leaf) 72324 72325 (.valid, []) (.node .leaf 72326 72345 (.valid, []) .leaf)))) 72346 72348 (.valid, []) (.node (.node (.node (.node (.node .leaf 72349 72349 (.valid, []) .leaf) 72350 72354 (.valid, []) .leaf) 72355 72383 (.disallowed, []) (.node .leaf 72384 72440 (.valid, []) .leaf)) 72441 72703 (.disallowed, []) (.node (.node .leaf 72704 72712 (.valid, []) .leaf) 72713 72713 (.disallowed, []) (.node .leaf 72714 72758 (.valid, []) .leaf))) 72759 72759 (.disallowed, []) (.node (.node (.node .leaf 72760 72768 (.valid, []) .leaf) 72769 72773 (.valid, []) (.node .leaf 72774 72783 (.disallowed, []) .leaf)) 72784 72793 (.valid, []) (.node (.node .leaf 72794 72812 (.valid, []) .leaf) 72813 72815 (.disallowed, []) (.node .leaf 72816 72817 (.valid, []) .leaf))))) 72818 72847 (.valid, []) (.node (.node (.node (.node (.node (.node .leaf 72848 72849 (.disallowed, []) .leaf) 72850 72871 (.valid, []) .leaf) 72872 72872 (.disallowed, []) (.node .leaf 72873 72886 (.valid, []) .leaf)) 72887 72959 (.disallowed, []) (.node (.node .leaf 72960 72966 (.valid, []) .leaf) 72967 72967 (.disallowed, []) (.node .leaf 72968 72969 (.valid, []) .leaf))) 72970 72970 (.disallowed, []) (.node (.node (.node .leaf 72971 73014 (.valid, []) .leaf) 73015 73017 (.disallowed, []) (.node .leaf 73018 73018 (.valid, []) .leaf)) 73019 73019 (.disallowed, []) (.node (.node .leaf 73020 73021 (.valid, []) .leaf) 73022 73022 (.disallowed, []) (.node .leaf 73023 73031 (.valid, []) .leaf)))) 73032 73039 (.disallowed, []) (.node (.node (.node (.node (.node .leaf 73040 73049 (.valid, []) .leaf) 73050 73055 (.disallowed, []) .leaf) 73056 73061 (.valid, []) (.node .leaf 73062 73062 (.disallowed, []) .leaf)) 73063 73064 (.valid, []) (.node (.node .leaf 73065 73065 (.disallowed, []) .leaf) 73066 73102 (.valid, []) (.node .leaf 73103 73103 (.disallowed, []) .leaf))) 73104 73105 (.valid, []) (.node (.node (.node .leaf 73106 73106 (.disallowed, []) .leaf) 73107 73112 (.valid, []) (.node .leaf 73113 73119 (.disallowed, []) .leaf)) 73120 73129 (.valid, []) (.node (.node .leaf 73130 73439 (.disallowed, []) .leaf) 73440 73462 (.valid, []) (.node .leaf 73463 73464 (.valid, []) .leaf)))))) 73465 73647 (.disallowed, []) (.node (.node (.node (.node (.node (.node (.node .leaf 73648 73648 (.valid, []) .leaf) 73649 73663 (.disallowed, []) .leaf) 73664 73713 (.valid, []) (.node .leaf 73714 73726 (.disallowed, []) .leaf)) 73727 73727 (.valid, []) (.node (.node .leaf 73728 74606 (.valid, []) .leaf) 74607 74648 (.valid, []) (.node .leaf 74649 74649 (.valid, []) .leaf))) 74650 74751 (.disallowed, []) (.node (.node (.node .leaf 74752 74850 (.valid, []) .leaf) 74851 74862 (.valid, []) (.node .leaf 74863 74863 (.disallowed, []) .leaf)) 74864 74867 (.valid, []) (.node (.node .leaf 74868 74868 (.valid, []) .leaf) 74869 74879 (.disallowed, []) (.node .leaf 74880 75075 (.valid, []) .leaf)))) 75076 77823 (.disallowed, []) (.node (.node (.node (.node (.node .leaf 77824 78894 (.valid, []) .leaf) 78895 78895 (.disallowed, []) .leaf) 78896 78904 (.disallowed, []) (.node .leaf 78905 82943 (.disallowed, []) .leaf)) 82944 83526 (.valid, []) (.node (.node .leaf 83527 92159 (.disallowed, []) .leaf) 92160 92728 (.valid, []) (.node .leaf 92729 92735 (.disallowed, []) .leaf))) 92736 92766 (.valid, []) (.node (.node (.node .leaf 92767 92767 (.disallowed, []) .leaf) 92768 92777 (.valid, []) (.node .leaf 92778 92781 (.disallowed, []) .leaf)) 92782 92783 (.valid, []) (.node (.node .leaf 92784 92879 (.disallowed, []) .leaf) 92880 92909 (.valid, []) (.node .leaf 92910 92911 (.disallowed, []) .leaf))))) 92912 92916 (.valid, []) (.node (.node (.node (.node (.node (.node .leaf 92917 92917 (.valid, []) .leaf) 92918 92927 (.disallowed, []) .leaf) 92928 92982 (.valid, []) (.node .leaf 92983 92991 (.valid, []) .leaf)) 92992 92995 (.valid, []) (.node (.node .leaf 92996 92997 (.valid, []) .leaf) 92998 93007 (.disallowed, []) (.node .leaf 93008 93017 (.valid, []) .leaf))) 93018 93018 (.disallowed, []) (.node (.node (.node .leaf 93019 93025 (.valid, []) .leaf) 93026 93026 (.disallowed, []) (.node .leaf 93027 93047 (.valid, []) .leaf)) 93048 93052 (.disallowed, []) (.node (.node .leaf 93053 93071 (.valid, []) .leaf) 93072 93759 (.disallowed, []) (.node .leaf 93760 93760 (.mapped, [93792]) .leaf)))) 93761 93761 (.mapped, [93793]) (.node (.node (.node (.node (.node .leaf 93762 93762 (.mapped, [93794]) .leaf) 93763 93763 (.mapped, [93795]) .leaf) 93764 93764 (.mapped, [93796]) (.node .leaf 93765 93765 (.mapped, [93797]) .leaf)) 93766 93766 (.mapped, [93798]) (.node (.node .leaf 93767 93767 (.mapped, [93799]) .leaf) 93768 93768 (.mapped, [93800]) (.node .leaf 93769 93769 (.mapped, [93801]) .leaf))) 93770 93770 (.mapped, [93802]) (.node (.node (.node .leaf 93771 93771 (.mapped, [93803]) .leaf) 93772 93772 (.mapped, [93804]) (.node .leaf 93773 93773 (.mapped, [93805]) .leaf)) 93774 93774 (.mapped, [93806]) (.node (.node .leaf 93775 93775 (.mapped, [93807]) .leaf) 93776 93776 (.mapped, [93808]) (.node .leaf 93777 93777 (.mapped, [93809]) .leaf))))))) 93778 93778 (.mapped, [93810]) (.node (.node (.node (.node (.node (.node (.node (.node .leaf 93779 93779 (.mapped, [93811]) .leaf) 93780 93780 (.mapped, [93812]) .leaf) 93781 93781 (.mapped, [93813]) (.node .leaf 93782 93782 (.mapped, [93814]) .leaf)) 93783 93783 (.mapped, [93815]) (.node (.node .leaf 93784 93784 (.mapped, [93816]) .leaf) 93785 93785 (.mapped, [93817]) (.node .leaf 93786 93786 (.mapped, [93818]) .leaf))) 93787 93787 (.mapped, [93819]) (.node (.node (.node .leaf 93788 93788 (.mapped, [93820]) .leaf) 93789 93789 (.mapped, [93821]) (.node .leaf 93790 93790 (.mapped, [93822]) .leaf)) 93791 93791 (.mapped, [93823]) (.node (.node .leaf 93792 93823 (.valid, []) .leaf) 93824 93850 (.valid, []) (.node .leaf 93851 93951 (.disallowed, []) .leaf)))) 93952 94020 (.valid, []) (.node (.node (.node (.node (.node .leaf 94021 94026 (.valid, []) .leaf) 94027 94030 (.disallowed, []) .leaf) 94031 94031 (.valid, []) (.node .leaf 94032 94078 (.valid, []) .leaf)) 94079 94087 (.valid, []) (.node (.node .leaf 94088 94094 (.disallowed, []) .leaf) 94095 94111 (.valid, []) (.node .leaf 94112 94175 (.disallowed, []) .leaf))) 94176 94176 (.valid, []) (.node (.node (.node .leaf 94177 94177 (.valid, []) .leaf) 94178 94178 (.valid, []) (.node .leaf 94179 94179 (.valid, []) .leaf)) 94180 94180 (.valid, []) (.node (.node .leaf 94181 94191 (.disallowed, []) .leaf) 94192 94193 (.valid, []) (.node .leaf 94194 94207 (.disallowed, []) .leaf))))) 94208 100332 (.valid, []) (.node (.node (.node (.node (.node (.node .leaf 100333 100337 (.valid, []) .leaf) 100338 100343 (.valid, []) .leaf) 100344 100351 (.disallowed, []) (.node .leaf 100352 101106 (.valid, []) .leaf)) 101107 101589 (.valid, []) (.node (.node .leaf 101590 101631 (.disallowed, []) .leaf) 101632 101640 (.valid, []) (.node .leaf 101641 110591 (.disallowed, []) .leaf))) 110592 110593 (.valid, []) (.node (.node (.node .leaf 110594 110878 (.valid, []) .leaf) 110879 110927 (.disallowed, []) (.node .leaf 110928 110930 (.valid, []) .leaf)) 110931 110947 (.disallowed, []) (.node (.node .leaf 110948 110951 (.valid, []) .leaf) 110952 110959 (.disallowed, []) (.node .leaf 110960 111355 (.valid, []) .leaf)))) 111356 113663 (.disallowed, []) (.node (.node (.node (.node (.node .leaf 113664 113770 (.valid, []) .leaf) 113771 113775 (.disallowed, []) .leaf) 113776 113788 (.valid, []) (.node .leaf 113789 113791 (.disallowed, []) .leaf)) 113792 113800 (.valid, []) (.node (.node .leaf 113801 113807 (.disallowed, []) .leaf) 113808 113817 (.valid, []) (.node .leaf 113818 113819 (.disallowed, []) .leaf))) 113820 113820 (.valid, []) (.node (.node (.node .leaf 113821 113822 (.valid, []) .leaf) 113823 113823 (.valid, []) (.node .leaf 113824 113827 (.ignored, []) .leaf)) 113828 118783 (.disallowed, []) (.node (.node .leaf 118784 119029 (.valid, []) .leaf) 119030 119039 (.disallowed, []) (.node .leaf 119040 119078 (.valid, []) .leaf)))))) 119079 119080 (.disallowed, []) (.node (.node (.node (.node (.node (.node (.node .leaf 119081 119081 (.valid, []) .leaf) 119082 119133 (.valid, []) .leaf) 119134 119134 (.mapped, [119127, 119141]) (.node .leaf 119135 119135 (.mapped, [119128, 119141]) .leaf)) 119136 119136 (.mapped, [119128, 119141, 119150]) (.node (.node .leaf 119137 119137 (.mapped, [119128, 119141, 119151]) .leaf) 119138 119138 (.mapped, [119128, 119141, 119152]) (.node .leaf 119139 119139 (.mapped, [119128, 119141, 119153]) .leaf))) 119140 119140 (.mapped, [119128, 119141, 119154]) (.node (.node (.node .leaf 119141 119154 (.valid, []) .leaf) 119155 119162 (.disallowed, []) (.node .leaf 119163 119226 (.valid, []) .leaf)) 119227 119227 (.mapped, [119225, 119141]) (.node (.node .leaf 119228 119228 (.mapped, [119226, 119141]) .leaf) 119229 119229 (.mapped, [119225, 119141, 119150]) (.node .leaf 119230 119230 (.mapped, [119226, 119141, 119150]) .leaf)))) 119231 119231 (.mapped, [119225, 119141, 119151]) (.node (.node (.node (.node (.node .leaf 119232 119232 (.mapped, [119226, 119141, 119151]) .leaf) 119233 119261 (.valid, []) .leaf) 119262 119272 (.valid, []) (.node .leaf 119273 119295 (.disallowed, []) .leaf)) 119296 119365 (.valid, []) (.node (.node .leaf 119366 119519 (.disallowed, []) .leaf) 119520 119539 (.valid, []) (.node .leaf 119540 119551 (.disallowed, []) .leaf))) 119552 119638 (.valid, []) (.node (.node (.node .leaf 119639 119647 (.disallowed, []) .leaf) 119648 119665 (.valid, []) (.node .leaf 119666 119672 (.valid, []) .leaf)) 119673 119807 (.disallowed, []) (.node (.node .leaf 119808 119808 (.mapped, [97]) .leaf) 119809 119809 (.mapped, [98]) (.node .leaf 119810 119810 (.mapped, [99]) .leaf))))) 119811 119811 (.mapped, [100]) (.node (.node (.node (.node (.node (.node .leaf 119812 119812 (.mapped, [101]) .leaf) 119813 119813 (.mapped, [102]) .leaf) 119814 119814 (.mapped, [103]) (.node .leaf 119815 119815 (.mapped, [104]) .leaf)) 119816 119816 (.mapped, [105]) (.node (.node .leaf 119817 119817 (.mapped, [106]) .leaf) 119818 119818 (.mapped, [107]) (.node .leaf 119819 119819 (.mapped, [108]) .leaf))) 119820 119820 (.mapped, [109]) (.node (.node (.node .leaf 119821 119821 (.mapped, [110]) .leaf) 119822 119822 (.mapped, [111]) (.node .leaf 119823 119823 (.mapped, [112]) .leaf)) 119824 119824 (.mapped, [113]) (.node (.node .leaf 119825 119825 (.mapped, [114]) .leaf) 119826 119826 (.mapped, [115]) (.node .leaf 119827 119827 (.mapped, [116]) .leaf)))) 119828 119828 (.mapped, [117]) (.node (.node (.node (.node (.node .leaf 119829 119829 (.mapped, [118]) .leaf) 119830 119830 (.mapped, [119]) .leaf) 119831 119831 (.mapped, [120]) (.node .leaf 119832 119832 (.mapped, [121]) .leaf)) 119833 119833 (.mapped, [122]) (.node (.node .leaf 119834 119834 (.mapped, [97]) .leaf) 119835 119835 (.mapped, [98]) (.node .leaf 119836 119836 (.mapped, [99]) .leaf))) 119837 119837 (.mapped, [100]) (.node (.node (.node .leaf 119838 119838 (.mapped, [101]) .leaf) 119839 119839 (.mapped, [102]) (.node .leaf 119840 119840 (.mapped, [103]) .leaf)) 119841 119841 (.mapped, [104]) (.node (.node .leaf 119842 119842 (.mapped, [105]) .leaf) 119843 119843 (.mapped, [106]) (.node .leaf 119844 119844 (.mapped, [107]) .leaf))))))))

def idnaTable24 : RTree (Status × List Nat) := (.node (.node (.node (.node (.node (.node (.node (.node (.node .leaf 119846 119846 (.mapped, [109]) .leaf) 119847 119847 (.mapped, [110]) .leaf) 119848 119848 (.mapped, [111]) (.node .leaf 119849 119849 (.mapped, [112]) .leaf)) 119850 119850 (.mapped, [113]) (.node (.node .leaf 119851 119851 (.mapped, [114]) .leaf) 119852 119852 (.mapped, [115]) (.node .leaf 119853 119853 (.mapped, [116]) .leaf))) 119854 119854 (.mapped, [117]) (.node (.node (.node (.node .leaf 119855 119855 (.mapped, [118]) .leaf) 119856 119856 (.mapped, [119]) .leaf) 119857 119857 (.mapped, [120]) (.node .leaf 119858 119858 (.mapped, [121]) .leaf)) 119859 119859 (.mapped, [122]) (.node (.node .leaf 119860 119860 (.mapped, [97]) .leaf) 119861 119861 (.mapped, [98]) (.node .leaf 119862 119862 (.mapped, [99]) .leaf)))) 119863 119863 (.mapped, [100]) (.node (.node (.node (.node (.node .leaf 119864 119864 (.mapped, [101]) .leaf) 119865 119865 (.mapped, [102]) .leaf) 119866 119866 (.mapped, [103]) (.node .leaf 119867 119867 (.mapped, [104]) .leaf)) 119868 119868 (.mapped, [105]) (.node (.node .leaf 119869 119869 (.mapped, [106]) .leaf) 119870 119870 (.mapped, [107]) (.node .leaf 119871 119871 (.mapped, [108]) .leaf))) 119872 119872 (.mapped, [109]) (.node (.node (.node .leaf 119873 119873 (.mapped, [110]) .leaf) 119874 119874 (.mapped, [111]) (.node .leaf 119875 119875 (.mapped, [112]) .leaf)) 119876 119876 (.mapped, [113]) (.node (.node .leaf 119877 119877 (.mapped, [114]) .leaf) 119878 119878 (.mapped, [115]) (.node .leaf 119879 119879 (.mapped, [116]) .leaf))))) 119880 119880 (.mapped, [117]) (.node (.node (.node (.node (.node (.node .leaf 119881 119881 (.mapped, [118]) .leaf) 119882 119882 (.mapped, [119]) .leaf) 119883 119883 (.mapped, [120]) (.node .leaf 119884 119884 (.mapped, [121]) .leaf)) 119885 119885 (.mapped, [122]) (.node (.node .leaf 119886 119886 (.mapped, [97]) .leaf) 119887 119887 (.mapped, [98]) (.node .leaf 119888 119888 (.mapped, [99]) .leaf))) 119889 119889 (.mapped, [100]) (.node (.node (.node .leaf 119890 119890 (.mapped, [101]) .leaf) 119891 119891 (.mapped, [102]) (.node .leaf 119892 119892 (.mapped, [103]) .leaf)) 119893 119893 (.disallowed, []) (.node (.node .leaf 119894 119894 (.mapped, [105]) .leaf) 119895 119895 (.mapped, [106]) (.node .leaf 119896 119896 (.mapped, [107]) .leaf)))) 119897 119897 (.mapped, [108]) (.node (.node (.node (.node (.node .leaf 119898 119898 (.mapped, [109]) .leaf) 119899 119899 (.mapped, [110]) .leaf) 119900 119900 (.mapped, [111]) (.node .leaf 119901 119901 (.mapped, [112]) .leaf)) 119902 119902 (.mapped, [113]) (.node (.node .leaf 119903 119903 (.mapped, [114]) .leaf) 119904 119904 (.mapped, [115]) (.node .leaf 119905 119905 (.mapped, [116]) .leaf))) 119906 119906 (.mapped, [117]) (.node (.node (.node .leaf 119907 119907 (.mapped, [118]) .leaf) 119908 119908 (.mapped, [119]) (.node .leaf 119909 119909 (.mapped, [120]) .leaf)) 119910 119910 (.mapped, [121]) (.node (.node .leaf 119911 119911 (.mapped, [122]) .leaf) 119912 119912 (.mapped, [97]) (.node .leaf 119913 119913 (.mapped, [98]) .leaf)))))) 119914 119914 (.mapped, [99]) (.node (.node (.node (.node (.node (.node (.node .leaf 119915 119915 (.mapped, [100]) .leaf) 119916 119916 (.mapped, [101]) .leaf) 119917 119917 (.mapped, [102]) (.node .leaf 119918 119918 (.mapped, [103]) .leaf)) 119919 119919 (.mapped, [104]) (.node (.node .leaf 119920 119920 (.mapped, [105]) .leaf) 119921 119921 (.mapped, [106]) (.node .leaf 119922 119922 (.mapped, [107]) .leaf))) 119923 119923 (.mapped, [108]) (.node (.node (.node .leaf 119924 119924 (.mapped, [109]) .leaf) 119925 119925 (.mapped, [110]) (.node .leaf 119926 119926 (.mapped, [111]) .leaf)) 119927 119927 (.mapped, [112]) (.node (.node .leaf 119928 119928 (.mapped, [113]) .leaf) 119929 119929 (.mapped, [114]) (.node .leaf 119930 119930 (.mapped, [115]) .leaf)))) 119931 119931 (.mapped, [116]) (.node (.node (.node (.node (.node .leaf 119932 119932 (.mapped, [117]) .leaf) 119933 119933 (.mapped, [118]) .leaf) 119934 119934 (.mapped, [119]) (.node .leaf 119935 119935 (.mapped, [120]) .leaf)) 119936 119936 (.mapped, [121]) (.node (.node .leaf 119937 119937 (.mapped, [122]) .leaf) 119938 119938 (.mapped, [97]) (.node .leaf 119939 119939 (.mapped, [98]) .leaf))) 119940 119940 (.mapped, [99]) (.node (.node (.node .leaf 119941 119941 (.mapped, [100]) .leaf) 119942 119942 (.mapped, [101]) (.node .leaf 119943 119943 (.mapped, [102]) .leaf)) 119944 119944 (.mapped, [103]) (.node (.node .leaf 119945 119945 (.mapped, [104]) .leaf) 119946 119946 (.mapped, [105]) (.node .leaf 119947 119947 (.mapped, [106]) .leaf))))) 119948 119948 (.mapped, [107]) (.node (.node (.node (.node (.node (.node .leaf 119949 119949 (.mapped, [108]) .leaf) 119950 119950 (.mapped, [109]) .leaf) 119951 119951 (.mapped, [110]) (.node .leaf 119952 119952 (.mapped, [111]) .leaf)) 119953 119953 (.mapped, [112]) (.node (.node .leaf 119954 119954 (.mapped, [113]) .leaf) 119955 119955 (.mapped, [114]) (.node .leaf 119956 119956 (.mapped, [115]) .leaf))) 119957 119957 (.mapped, [116]) (.node (.node (.node .leaf 119958 119958 (.mapped, [117]) .leaf) 119959 119959 (.mapped, [118]) (.node .leaf 119960 119960 (.mapped, [119]) .leaf)) 119961 119961 (.mapped, [120]) (.node (.node .leaf 119962 119962 (.mapped, [121]) .leaf) 119963 119963 (.mapped, [122]) (.node .leaf 119964 119964 (.mapped, [97]) .leaf)))) 119965 119965 (.disallowed, []) (.node (.node (.node (.node (.node .leaf 119966 119966 (.mapped, [99]) .leaf) 119967 119967 (.mapped, [100]) .leaf) 119968 119969 (.disallowed, []) (.node .leaf 119970 119970 (.mapped, [103]) .leaf)) 119971 119972 (.disallowed, []) (.node (.node .leaf 119973 119973 (.mapped, [106]) .leaf) 119974 119974 (.mapped, [107]) (.node .leaf 119975 119976 (.disallowed, []) .leaf))) 119977 119977 (.mapped, [110]) (.node (.node (.node .leaf 119978 119978 (.mapped, [111]) .leaf) 119979 119979 (.mapped, [112]) (.node .leaf 119980 119980 (.mapped, [113]) .leaf)) 119981 119981 (.disallowed, []) (.node (.node .leaf 119982 119982 (.mapped, [115]) .leaf) 119983 119983 (.mapped, [116]) (.node .leaf 119984 119984 (.mapped, [117]) .leaf))))))) 119985 119985 (.mapped, [118]) (.node (.node (.node (.node (.node (.node (.node (.node .leaf 119986 119986 (.mapped, [119]) .leaf) 119987 119987 (.mapped, [120]) .leaf) 119988 119988 (.mapped, [121]) (.node .leaf 119989 119989 (.mapped, [122]) .leaf)) 119990 119990 (.mapped, [97]) (.node (.node .leaf 119991 119991 (.mapped, [98]) .leaf) 119992 119992 (.mapped, [99]) (.node .leaf 119993 119993 (.mapped, [100]) .leaf))) 119994 119994 (.disallowed, []) (.node (.node (.node .leaf 119995 119995 (.mapped, [102]) .leaf) 119996 119996 (.disallowed, []) (.node .leaf 119997 119997 (.mapped, [104]) .leaf)) 119998 119998 (.mapped, [105]) (.node (.node .leaf 119999 119999 (.mapped, [106]) .leaf) 120000 120000 (.mapped, [107]) (.node .leaf 120001 120001 (.mapped, [108]) .leaf)))) 120002 120002 (.mapped, [109]) (.node (.node (.node (.node (.node .leaf 120003 120003 (.mapped, [110]) .leaf) 120004 120004 (.disallowed, []) .leaf) 120005 120005 (.mapped, [112]) (.node .leaf 120006 120006 (.mapped, [113]) .leaf)) 120007 120007 (.mapped, [114]) (.node (.node .leaf 120008 120008 (.mapped, [115]) .leaf) 120009 120009 (.mapped, [116]) (.node .leaf 120010 120010 (.mapped, [117]) .leaf))) 120011 120011 (.mapped, [118]) (.node (.node (.node .leaf 120012 120012 (.mapped, [119]) .leaf) 120013 120013 (.mapped, [120]) (.node .leaf 120014 120014 (.mapped, [121]) .leaf)) 120015 120015 (.mapped, [122]) (.node (.node .leaf 120016 120016 (.mapped, [97]) .leaf) 120017 120017 (.mapped, [98]) (.node .leaf 120018 120018 (.mapped, [99]) .leaf))))) 120019 120019 (.mapped, [100]) (.node (.node (.node (.node (.node (.node .leaf 120020 120020 (.mapped, [101]) .leaf) 120021 120021 (.mapped, [102]) .leaf) 120022 120022 (.mapped, [103]) (.node .leaf 120023 120023 (.mapped, [104]) .leaf)) 120024 120024 (.mapped, [105]) (.node (.node .leaf 120025 120025 (.mapped, [106]) .leaf) 120026 120026 (.mapped, [107]) (.node .leaf 120027 120027 (.mapped, [108]) .leaf))) 120028 120028 (.mapped, [109]) (.node (.node (.node .leaf 120029 120029 (.mapped, [110]) .leaf) 120030 120030 (.mapped, [111]) (.node .leaf 120031 120031 (.mapped, [112]) .leaf)) 120032 120032 (.mapped, [113]) (.node (.node .leaf 120033 120033 (.mapped, [114]) .leaf) 120034 120034 (.mapped, [115]) (.node .leaf 120035 120035 (.mapped, [116]) .leaf)))) 120036 120036 (.mapped, [117]) (.node (.node (.node (.node (.node .leaf 120037 120037 (.mapped, [118]) .leaf) 120038 120038 (.mapped, [119]) .leaf) 120039 120039 (.mapped, [120]) (.node .leaf 120040 120040 (.mapped, [121]) .leaf)) 120041 120041 (.mapped, [122]) (.node (.node .leaf 120042 120042 (.mapped, [97]) .leaf) 120043 120043 (.mapped, [98]) (.node .leaf 120044 120044 (.mapped, [99]) .leaf))) 120045 120045 (.mapped, [100]) (.node (.node (.node .leaf 120046 120046 (.mapped, [101]) .leaf) 120047 120047 (.mapped, [102]) (.node .leaf 120048 120048 (.mapped, [103]) .leaf)) 120049 120049 (.mapped, [104]) (.node (.node .leaf 120050 120050 (.mapped, [105]) .leaf) 120051 120051 (.mapped, [106]) (.node .leaf 120052 120052 (.mapped, [107]) .leaf)))))) 120053 120053 (.mapped, [108]) (.node (.node (.node (.node (.node (.node (.node .leaf 120054 120054 (.mapped, [109]) .leaf) 120055 120055 (.mapped, [110]) .leaf) 120056 120056 (.mapped, [111]) (.node .leaf 120057 120057 (.mapped, [112]) .leaf)) 120058 120058 (.mapped, [113]) (.node (.node .leaf 120059 120059 (.mapped, [114]) .leaf) 120060 120060 (.mapped, [115]) (.node .leaf 120061 120061 (.mapped, [116]) .leaf))) 120062 120062 (.mapped, [117]) (.node (.node (.node .leaf 120063 120063 (.mapped, [118]) .leaf) 120064 120064 (.mapped, [119]) (.node .leaf 120065 120065 (.mapped, [120]) .leaf)) 120066 120066 (.mapped, [121]) (.node (.node .leaf 120067 120067 (.mapped, [122]) .leaf) 120068 120068 (.mapped, [97]) (.node .leaf 120069 120069 (.mapped, [98]) .leaf)))) 120070 120070 (.disallowed, []) (.node (.node (.node (.node (.node .leaf 120071 120071 (.mapped, [100]) .leaf) 120072 120072 (.mapped, [101]) .leaf) 120073 120073 (.mapped, [102]) (.node .leaf 120074 120074 (.mapped, [103]) .leaf)) 120075 120076 (.disallowed, []) (.node (.node .leaf 120077 120077 (.mapped, [106]) .leaf) 120078 120078 (.mapped, [107]) (.node .leaf 120079 120079 (.mapped, [108]) .leaf))) 120080 120080 (.mapped, [109]) (.node (.node (.node .leaf 120081 120081 (.mapped, [110]) .leaf) 120082 120082 (.mapped, [111]) (.node .leaf 120083 120083 (.mapped, [112]) .leaf)) 120084 120084 (.mapped, [113]) (.node (.node .leaf 120085 120085 (.disallowed, []) .leaf) 120086 120086 (.mapped, [115]) (.node .leaf 120087 120087 (.mapped, [116]) .leaf))))) 120088 120088 (.mapped, [117]) (.node (.node (.node (.node (.node (.node .leaf 120089 120089 (.mapped, [118]) .leaf) 120090 120090 (.mapped, [119]) .leaf) 120091 120091 (.mapped, [120]) (.node .leaf 120092 120092 (.mapped, [121]) .leaf)) 120093 120093 (.disallowed, []) (.node (.node .leaf 120094 120094 (.mapped, [97]) .leaf) 120095 120095 (.mapped, [98]) (.node .leaf 120096 120096 (.mapped, [99]) .leaf))) 120097 120097 (.mapped, [100]) (.node (.node (.node .leaf 120098 120098 (.mapped, [101]) .leaf) 120099 120099 (.mapped, [102]) (.node .leaf 120100 120100 (.mapped, [103]) .leaf)) 120101 120101 (.mapped, [104]) (.node (.node .leaf 120102 120102 (.mapped, [105]) .leaf) 120103 120103 (.mapped, [106]) (.node .leaf 120104 120104 (.mapped, [107]) .leaf)))) 120105 120105 (.mapped, [108]) (.node (.node (.node (.node (.node .leaf 120106 120106 (.mapped, [109]) .leaf) 120107 120107 (.mapped, [110]) .leaf) 120108 120108 (.mapped, [111]) (.node .leaf 120109 120109 (.mapped, [112]) .leaf)) 120110 120110 (.mapped, [113]) (.node (.node .leaf 120111 120111 (.mapped, [114]) .leaf) 120112 120112 (.mapped, [115]) (.node .leaf 120113 120113 (.mapped, [116]) .leaf))) 120114 120114 (.mapped, [117]) (.node (.node (.node .leaf 120115 120115 (.mapped, [118]) .leaf) 120116 120116 (.mapped, [119]) (.node .leaf 120117 120117 (.mapped, [120]) .leaf)) 120118 120118 (.mapped, [121]) (.node (.node .leaf 120119 120119 (.mapped, [122]) .leaf) 120120 120120 (.mapped, [97]) (.node .leaf 120121 120121 (.mapped, [98]) .leaf))))))))

def idnaTable25 : RTree (Status × List Nat) := (.node (.node (.node (.node (.node (.node (.node (.node (.node .leaf 120123 120123 (.mapped, [100]) .leaf) 120124 120124 (.mapped, [101]) .leaf) 120125 120125 (.mapped, [102]) (.node .leaf 120126 120126 (.mapped, [103]) .leaf)) 120127 120127 (.disallowed, []) (.node (.node .leaf 120128 120128 (.mapped, [105]) .leaf) 120129 120129 (.mapped, [106]) (.node .leaf 120130 120130 (.mapped, [107]) .leaf))) 120131 120131 (.mapped, [108]) (.node (.node (.node .leaf 120132 120132 (.mapped, [109]) .leaf) 120133 120133 (.disallowed, []) (.node .leaf 120134 120134 (.mapped, [111]) .leaf)) 120135 120137 (.disallowed, []) (.node (.node .leaf 120138 120138 (.mapped, [115]) .leaf) 120139 120139 (.mapped, [116]) (.node .leaf 120140 120140 (.mapped, [117]) .leaf)))) 120141 120141 (.mapped, [118]) (.node (.node (.node (.node (.node .leaf 120142 120142 (.mapped, [119]) .leaf) 120143 120143 (.mapped, [120]) .leaf) 120144 120144 (.mapped, [121]) (.node .leaf 120145 120145 (.disallowed, []) .leaf)) 120146 120146 (.mapped, [97]) (.node (.node .leaf 120147 120147 (.mapped, [98]) .leaf) 120148 120148 (.mapped, [99]) (.node .leaf 120149 120149 (.mapped, [100]) .leaf))) 120150 120150 (.mapped, [101]) (.node (.node (.node .leaf 120151 120151 (.mapped, [102]) .leaf) 120152 120152 (.mapped, [103]) (.node .leaf 120153 120153 (.mapped, [104]) .leaf)) 120154 120154 (.mapped, [105]) (.node (.node .leaf 120155 120155 (.mapped, [106]) .leaf) 120156 120156 (.mapped, [107]) (.node .leaf 120157 120157 (.mapped, [108]) .leaf))))) 120158 120158 (.mapped, [109]) (.node (.node (.node (.node (.node (.node .leaf 120159 120159 (.mapped, [110]) .leaf) 120160 120160 (.mapped, [111]) .leaf) 120161 120161 (.mapped, [112]) (.node .leaf 120162 120162 (.mapped, [113]) .leaf)) 120163 120163 (.mapped, [114]) (.node (.node .leaf 120164 120164 (.mapped, [115]) .leaf) 120165 120165 (.mapped, [116]) (.node .leaf 120166 120166 (.mapped, [117]) .leaf))) 120167 120167 (.mapped, [118]) (.node (.node (.node .leaf 120168 120168 (.mapped, [119]) .leaf) 120169 120169 (.mapped, [120]) (.node .leaf 120170 120170 (.mapped, [121]) .leaf)) 120171 120171 (.mapped, [122]) (.node (.node .leaf 120172 120172 (.mapped, [97]) .leaf) 120173 120173 (.mapped, [98]) (.node .leaf 120174 120174 (.mapped, [99]) .leaf)))) 120175 120175 (.mapped, [100]) (.node (.node (.node (.node (.node .leaf 120176 120176 (.mapped, [101]) .leaf) 120177 120177 (.mapped, [102]) .leaf) 120178 120178 (.mapped, [103]) (.node .leaf 120179 120179 (.mapped, [104]) .leaf)) 120180 120180 (.mapped, [105]) (.node (.node .leaf 120181 120181 (.mapped, [106]) .leaf) 120182 120182 (.mapped, [107]) (.node .leaf 120183 120183 (.mapped, [108]) .leaf))) 120184 120184 (.mapped, [109]) (.node (.node (.node .leaf 120185 120185 (.mapped, [110]) .leaf) 120186 120186 (.mapped, [111]) (.node .leaf 120187 120187 (.mapped, [112]) .leaf)) 120188 120188 (.mapped, [113]) (.node (.node .leaf 120189 120189 (.mapped, [114]) .leaf) 120190 120190 (.mapped, [115]) (.node .leaf 120191 120191 (.mapped, [116]) .leaf)))))) 120192 120192 (.mapped, [117]) (.node (.node (.node (.node (.node (.node (.node .leaf 120193 120193 (.mapped, [118]) .leaf) 120194 120194 (.mapped, [119]) .leaf) 120195 120195 (.mapped, [120]) (.node .leaf 120196 120196 (.mapped, [121]) .leaf)) 120197 120197 (.mapped, [122]) (.node (.node .leaf 120198 120198 (.mapped, [97]) .leaf) 120199 120199 (.mapped, [98]) (.node .leaf 120200 120200 (.mapped, [99]) .leaf))) 120201 120201 (.mapped, [100]) (.node (.node (.node .leaf 120202 120202 (.mapped, [101]) .leaf) 120203 120203 (.mapped, [102]) (.node .leaf 120204 120204 (.mapped, [103]) .leaf)) 120205 120205 (.mapped, [104]) (.node (.node .leaf 120206 120206 (.mapped, [105]) .leaf) 120207 120207 (.mapped, [106]) (.node .leaf 120208 120208 (.mapped, [107]) .leaf)))) 120209 120209 (.mapped, [108]) (.node (.node (.node (.node (.node .leaf 120210 120210 (.mapped, [109]) .leaf) 120211 120211 (.mapped, [110]) .leaf) 120212 120212 (.mapped, [111]) (.node .leaf 120213 120213 (.mapped, [112]) .leaf)) 120214 120214 (.mapped, [113]) (.node (.node .leaf 120215 120215 (.mapped, [114]) .leaf) 120216 120216 (.mapped, [115]) (.node .leaf 120217 120217 (.mapped, [116]) .leaf))) 120218 120218 (.mapped, [117]) (.node (.node (.node .leaf 120219 120219 (.mapped, [118]) .leaf) 120220 120220 (.mapped, [119]) (.node .leaf 120221 120221 (.mapped, [120]) .leaf)) 120222 120222 (.mapped, [121]) (.node (.node .leaf 120223 120223 (.mapped, [122]) .leaf) 120224 120224 (.mapped, [97]) (.node .leaf 120225 120225 (.mapped, [98]) .leaf))))) 120226 120226 (.mapped, [99]) (.node (.node (.node (.node (.node (.node .leaf 120227 120227 (.mapped, [100]) .leaf) 120228 120228 (.mapped, [101]) .leaf) 120229 120229 (.mapped, [102]) (.node .leaf 120230 120230 (.mapped, [103]) .leaf)) 120231 120231 (.mapped, [104]) (.node (.node .leaf 120232 120232 (.mapped, [105]) .leaf) 120233 120233 (.mapped, [106]) (.node .leaf 120234 120234 (.mapped, [107]) .leaf))) 120235 120235 (.mapped, [108]) (.node (.node (.node .leaf 120236 120236 (.mapped, [109]) .leaf) 120237 120237 (.mapped, [110]) (.node .leaf 120238 120238 (.mapped, [111]) .leaf)) 120239 120239 (.mapped, [112]) (.node (.node .leaf 120240 120240 (.mapped, [113]) .leaf) 120241 120241 (.mapped, [114]) (.node .leaf 120242 120242 (.mapped, [115]) .leaf)))) 120243 120243 (.mapped, [116]) (.node (.node (.node (.node (.node .leaf 120244 120244 (.mapped, [117]) .leaf) 120245 120245 (.mapped, [118]) .leaf) 120246 120246 (.mapped, [119]) (.node .leaf 120247 120247 (.mapped, [120]) .leaf)) 120248 120248 (.mapped, [121]) (.node (.node .leaf 120249 120249 (.mapped, [122]) .leaf) 120250 120250 (.mapped, [97]) (.node .leaf 120251 120251 (.mapped, [98]) .leaf))) 120252 120252 (.mapped, [99]) (.node (.node (.node .leaf 120253 120253 (.mapped, [100]) .leaf) 120254 120254 (.mapped, [101]) (.node .leaf 120255 120255 (.mapped, [102]) .leaf)) 120256 120256 (.mapped, [103]) (.node (.node .leaf 120257 120257 (.mapped, [104]) .leaf) 120258 120258 (.mapped, [105]) (.node .leaf 120259 120259 (.mapped, [106]) .leaf))))))) 120260 120260 (.mapped, [107]) (.node (.node (.node (.node (.node (.node (.node (.node .leaf 120261 120261 (.mapped, [108]) .leaf) 120262 120262 (.mapped, [109]) .leaf) 120263 120263 (.mapped, [110]) (.node .leaf 120264 120264 (.mapped, [111]) .leaf)) 120265 120265 (.mapped, [112]) (.node (.node .leaf 120266 120266 (.mapped, [113]) .leaf) 120267 120267 (.mapped, [114]) (.node .leaf 120268 120268 (.mapped, [115]) .leaf))) 120269 120269 (.mapped, [116]) (.node (.node (.node .leaf 120270 120270 (.mapped, [117]) .leaf) 120271 120271 (.mapped, [118]) (.node .leaf 120272 120272 (.mapped, [119]) .leaf)) 120273 120273 (.mapped, [120]) (.node (.node .leaf 120274 120274 (.mapped, [121]) .leaf) 120275 120275 (.mapped, [122]) (.node .leaf 120276 120276 (.mapped, [97]) .leaf)))) 120277 120277 (.mapped, [98]) (.node (.node (.node (.node (.node .leaf 120278 120278 (.mapped, [99]) .leaf) 120279 120279 (.mapped, [100]) .leaf) 120280 120280 (.mapped, [101]) (.node .leaf 120281 120281 (.mapped, [102]) .leaf)) 120282 120282 (.mapped, [103]) (.node (.node .leaf 120283 120283 (.mapped, [104]) .leaf) 120284 120284 (.mapped, [105]) (.node .leaf 120285 120285 (.mapped, [106]) .leaf))) 120286 120286 (.mapped, [107]) (.node (.node (.node .leaf 120287 120287 (.mapped, [108]) .leaf) 120288 120288 (.mapped, [109]) (.node .leaf 120289 120289 (.mapped, [110]) .leaf)) 120290 120290 (.mapped, [111]) (.node (.node .leaf 120291 120291 (.mapped, [112]) .leaf) 120292 120292 (.mapped, [113]) (.node .leaf 120293 120293 (.mapped, [114]) .leaf))))) 120294 120294 (.mapped, [115]) (.node (.node (.node (.node (.node (.node .leaf 120295 120295 (.mapped, [116]) .leaf) 120296 120296 (.mapped, [117]) .leaf) 120297 120297 (.mapped, [118]) (.node .leaf 120298 120298 (.mapped, [119]) .leaf)) 120299 120299 (.mapped, [120]) (.node (.node .leaf 120300 120300 (.mapped, [121]) .leaf) 120301 120301 (.mapped, [122]) (.node .leaf 120302 120302 (.mapped, [97]) .leaf))) 120303 120303 (.mapped, [98]) (.node (.node (.node .leaf 120304 120304 (.mapped, [99]) .leaf) 120305 120305 (.mapped, [100]) (.node .leaf 120306 120306 (.mapped, [101]) .leaf)) 120307 120307 (.mapped, [102]) (.node (.node .leaf 120308 120308 (.mapped, [103]) .leaf) 120309 120309 (.mapped, [104]) (.node .leaf 120310 120310 (.mapped, [105]) .leaf)))) 120311 120311 (.mapped, [106]) (.node (.node (.node (.node (.node .leaf 120312 120312 (.mapped, [107]) .leaf) 120313 120313 (.mapped, [108]) .leaf) 120314 120314 (.mapped, [109]) (.node .leaf 120315 120315 (.mapped, [110]) .leaf)) 120316 120316 (.mapped, [111]) (.node (.node .leaf 120317 120317 (.mapped, [112]) .leaf) 120318 120318 (.mapped, [113]) (.node .leaf 120319 120319 (.mapped, [114]) .leaf))) 120320 120320 (.mapped, [115]) (.node (.node (.node .leaf 120321 120321 (.mapped, [116]) .leaf) 120322 120322 (.mapped, [117]) (.node .leaf 120323 120323 (.mapped, [118]) .leaf)) 120324 120324 (.mapped, [119]) (.node (.node .leaf 120325 120325 (.mapped, [120]) .leaf) 120326 120326 (.mapped, [121]) (.node .leaf 120327 120327 (.mapped, [122]) .leaf)))))) 120328 120328 (.mapped, [97]) (.node (.node (.node (.node (.node (.node (.node .leaf 120329 120329 (.mapped, [98]) .leaf) 120330 120330 (.mapped, [99]) .leaf) 120331 120331 (.mapped, [100]) (.node .leaf 120332 120332 (.mapped, [101]) .leaf)) 120333 120333 (.mapped, [102]) (.node (.node .leaf 120334 120334 (.mapped, [103]) .leaf) 120335 120335 (.mapped, [104]) (.node .leaf 120336 120336 (.mapped, [105]) .leaf))) 120337 120337 (.mapped, [106]) (.node (.node (.node .leaf 120338 120338 (.mapped, [107]) .leaf) 120339 120339 (.mapped, [108]) (.node .leaf 120340 120340 (.mapped, [109]) .leaf)) 120341 120341 (.mapped, [110]) (.node (.node .leaf 120342 120342 (.mapped, [111]) .leaf) 120343 120343 (.mapped, [112]) (.node .leaf 120344 120344 (.mapped, [113]) .leaf)))) 120345 120345 (.mapped, [114]) (.node (.node (.node (.node (.node .leaf 120346 120346 (.mapped, [115]) .leaf) 120347 120347 (.mapped, [116]) .leaf) 120348 120348 (.mapped, [117]) (.node .leaf 120349 120349 (.mapped, [118]) .leaf)) 120350 120350 (.mapped, [119]) (.node (.node .leaf 120351 120351 (.mapped, [120]) .leaf) 120352 120352 (.mapped, [121]) (.node .leaf 120353 120353 (.mapped, [122]) .leaf))) 120354 120354 (.mapped, [97]) (.node (.node (.node .leaf 120355 120355 (.mapped, [98]) .leaf) 120356 120356 (.mapped, [99]) (.node .leaf 120357 120357 (.mapped, [100]) .leaf)) 120358 120358 (.mapped, [101]) (.node (.node .leaf 120359 120359 (.mapped, [102]) .leaf) 120360 120360 (.mapped, [103]) (.node .leaf 120361 120361 (.mapped, [104]) .leaf))))) 120362 120362 (.mapped, [105]) (.node (.node (.node (.node (.node (.node .leaf 120363 120363 (.mapped, [106]) .leaf) 120364 120364 (.mapped, [107]) .leaf) 120365 120365 (.mapped, [108]) (.node .leaf 120366 120366 (.mapped, [109]) .leaf)) 120367 120367 (.mapped, [110]) (.node (.node .leaf 120368 120368 (.mapped, [111]) .leaf) 120369 120369 (.mapped, [112]) (.node .leaf 120370 120370 (.mapped, [113]) .leaf))) 120371 120371 (.mapped, [114]) (.node (.node (.node .leaf 120372 120372 (.mapped, [115]) .leaf) 120373 120373 (.mapped, [116]) (.node .leaf 120374 120374 (.mapped, [117]) .leaf)) 120375 120375 (.mapped, [118]) (.node (.node .leaf 120376 120376 (.mapped, [119]) .leaf) 120377 120377 (.mapped, [120]) (.node .leaf 120378 120378 (.mapped, [121]) .leaf)))) 120379 120379 (.mapped, [122]) (.node (.node (.node (.node (.node .leaf 120380 120380 (.mapped, [97]) .leaf) 120381 120381 (.mapped, [98]) .leaf) 120382 120382 (.mapped, [99]) (.node .leaf 120383 120383 (.mapped, [100]) .leaf)) 120384 120384 (.mapped, [101]) (.node (.node .leaf 120385 120385 (.mapped, [102]) .leaf) 120386 120386 (.mapped, [103]) (.node .leaf 120387 120387 (.mapped, [104]) .leaf))) 120388 120388 (.mapped, [105]) (.node (.node (.node .leaf 120389 120389 (.mapped, [106]) .leaf) 120390 120390 (.mapped, [107]) (.node .leaf 120391 120391 (.mapped, [108]) .leaf)) 120392 120392 (.mapped, [109]) (.node (.node .leaf 120393 120393 (.mapped, [110]) .leaf) 120394 120394 (.mapped, [111]) (.node .leaf 120395 120395 (.mapped, [112]) .leaf))))))))

def idnaTable26 : RTree (Status × List Nat) := (.node (.node (.node (.node (.node (.node (.node (.node (.node .leaf 120397 120397 (.mapped, [114]) .leaf) 120398 120398 (.mapped, [115]) .leaf) 120399 120399 (.mapped, [116]) (.node .leaf 120400 120400 (.mapped, [117]) .leaf)) 120401 120401 (.mapped, [118]) (.node (.node .leaf 120402 120402 (.mapped, [119]) .leaf) 120403 120403 (.mapped, [120]) (.node .leaf 120404 120404 (.mapped, [121]) .leaf))) 120405 120405 (.mapped, [122]) (.node (.node (.node .leaf 120406 120406 (.mapped, [97]) .leaf) 120407 120407 (.mapped, [98]) (.node .leaf 120408 120408 (.mapped, [99]) .leaf)) 120409 120409 (.mapped, [100]) (.node (.node .leaf 120410 120410 (.mapped, [101]) .leaf) 120411 120411 (.mapped, [102]) (.node .leaf 120412 120412 (.mapped, [103]) .leaf)))) 120413 120413 (.mapped, [104]) (.node (.node (.node (.node (.node .leaf 120414 120414 (.mapped, [105]) .leaf) 120415 120415 (.mapped, [106]) .leaf) 120416 120416 (.mapped, [107]) (.node .leaf 120417 120417 (.mapped, [108]) .leaf)) 120418 120418 (.mapped, [109]) (.node (.node .leaf 120419 120419 (.mapped, [110]) .leaf) 120420 120420 (.mapped, [111]) (.node .leaf 120421 120421 (.mapped, [112]) .leaf))) 120422 120422 (.mapped, [113]) (.node (.node (.node .leaf 120423 120423 (.mapped, [114]) .leaf) 120424 120424 (.mapped, [115]) (.node .leaf 120425 120425 (.mapped, [116]) .leaf)) 120426 120426 (.mapped, [117]) (.node (.node .leaf 120427 120427 (.mapped, [118]) .leaf) 120428 120428 (.mapped, [119]) (.node .leaf 120429 120429 (.mapped, [120]) .leaf))))) 120430 120430 (.mapped, [121]) (.node (.node (.node (.node (.node (.node .leaf 120431 120431 (.mapped, [122]) .leaf) 120432 120432 (.mapped, [97]) .leaf) 120433 120433 (.mapped, [98]) (.node .leaf 120434 120434 (.mapped, [99]) .leaf)) 120435 120435 (.mapped, [100]) (.node (.node .leaf 120436 120436 (.mapped, [101]) .leaf) 120437 120437 (.mapped, [102]) (.node .leaf 120438 120438 (.mapped, [103]) .leaf))) 120439 120439 (.mapped, [104]) (.node (.node (.node .leaf 120440 120440 (.mapped, [105]) .leaf) 120441 120441 (.mapped, [106]) (.node .leaf 120442 120442 (.mapped, [107]) .leaf)) 120443 120443 (.mapped, [108]) (.node (.node .leaf 120444 120444 (.mapped, [109]) .leaf) 120445 120445 (.mapped, [110]) (.node .leaf 120446 120446 (.mapped, [111]) .leaf)))) 120447 120447 (.mapped, [112]) (.node (.node (.node (.node (.node .leaf 120448 120448 (.mapped, [113]) .leaf) 120449 120449 (.mapped, [114]) .leaf) 120450 120450 (.mapped, [115]) (.node .leaf 120451 120451 (.mapped, [116]) .leaf)) 120452 120452 (.mapped, [117]) (.node (.node .leaf 120453 120453 (.mapped, [118]) .leaf) 120454 120454 (.mapped, [119]) (.node .leaf 120455 120455 (.mapped, [120]) .leaf))) 120456 120456 (.mapped, [121]) (.node (.node (.node .leaf 120457 120457 (.mapped, [122]) .leaf) 120458 120458 (.mapped, [97]) (.node .leaf 120459 120459 (.mapped, [98]) .leaf)) 120460 120460 (.mapped, [99]) (.node (.node .leaf 120461 120461 (.mapped, [100]) .leaf) 120462 120462 (.mapped, [101]) (.node .leaf 120463 120463 (.mapped, [102]) .leaf)))))) 120464 120464 (.mapped, [103]) (.node (.node (.node (.node (.node (.node (.node .leaf 120465 120465 (.mapped, [104]) .leaf) 120466 120466 (.mapped, [105]) .leaf) 120467 120467 (.mapped, [106]) (.node .leaf 120468 120468 (.mapped, [107]) .leaf)) 120469 120469 (.mapped, [108]) (.node (.node .leaf 120470 120470 (.mapped, [109]) .leaf) 120471 120471 (.mapped, [110]) (.node .leaf 120472 120472 (.mapped, [111]) .leaf))) 120473 120473 (.mapped, [112]) (.node (.node (.node .leaf 120474 120474 (.mapped, [113]) .leaf) 120475 120475 (.mapped, [114]) (.node .leaf 120476 120476 (.mapped, [115]) .leaf)) 120477 120477 (.mapped, [116]) (.node (.node .leaf 120478 120478 (.mapped, [117]) .leaf) 120479 120479 (.mapped, [118]) (.node .leaf 120480 120480 (.mapped, [119]) .leaf)))) 120481 120481 (.mapped, [120]) (.node (.node (.node (.node (.node .leaf 120482 120482 (.mapped, [121]) .leaf) 120483 120483 (.mapped, [122]) .leaf) 120484 120484 (.mapped, [305]) (.node .leaf 120485 120485 (.mapped, [567]) .leaf)) 120486 120487 (.disallowed, []) (.node (.node .leaf 120488 120488 (.mapped, [945]) .leaf) 120489 120489 (.mapped, [946]) (.node .leaf 120490 120490 (.mapped, [947]) .leaf))) 120491 120491 (.mapped, [948]) (.node (.node (.node .leaf 120492 120492 (.mapped, [949]) .leaf) 120493 120493 (.mapped, [950]) (.node .leaf 120494 120494 (.mapped, [951]) .leaf)) 120495 120495 (.mapped, [952]) (.node (.node .leaf 120496 120496 (.mapped, [953]) .leaf) 120497 120497 (.mapped, [954]) (.node .leaf 120498 120498 (.mapped, [955]) .leaf))))) 120499 120499 (.mapped, [956]) (.node (.node (.node (.node (.node (.node .leaf 120500 120500 (.mapped, [957]) .leaf) 120501 120501 (.mapped, [958]) .leaf) 120502 120502 (.mapped, [959]) (.node .leaf 120503 120503 (.mapped, [960]) .leaf)) 120504 120504 (.mapped, [961]) (.node (.node .leaf 120505 120505 (.mapped, [952]) .leaf) 120506 120506 (.mapped, [963]) (.node .leaf 120507 120507 (.mapped, [964]) .leaf))) 120508 120508 (.mapped, [965]) (.node (.node (.node .leaf 120509 120509 (.mapped, [966]) .leaf) 120510 120510 (.mapped, [967]) (.node .leaf 120511 120511 (.mapped, [968]) .leaf)) 120512 120512 (.mapped, [969]) (.node (.node .leaf 120513 120513 (.mapped, [8711]) .leaf) 120514 120514 (.mapped, [945]) (.node .leaf 120515 120515 (.mapped, [946]) .leaf)))) 120516 120516 (.mapped, [947]) (.node (.node (.node (.node (.node .leaf 120517 120517 (.mapped, [948]) .leaf) 120518 120518 (.mapped, [949]) .leaf) 120519 120519 (.mapped, [950]) (.node .leaf 120520 120520 (.mapped, [951]) .leaf)) 120521 120521 (.mapped, [952]) (.node (.node .leaf 120522 120522 (.mapped, [953]) .leaf) 120523 120523 (.mapped, [954]) (.node .leaf 120524 120524 (.mapped, [955]) .leaf))) 120525 120525 (.mapped, [956]) (.node (.node (.node .leaf 120526 120526 (.mapped, [957]) .leaf) 120527 120527 (.mapped, [958]) (.node .leaf 120528 120528 (.mapped, [959]) .leaf)) 120529 120529 (.mapped, [960]) (.node (.node .leaf 120530 120530 (.mapped, [961]) .leaf) 120531 120532 (.mapped, [963]) (.node .leaf 120533 120533 (.mapped, [964]) .leaf))))))) 120534 120534 (.mapped, [965]) (.node (.node (.node (.node (.node (.node (.node (.node .leaf 120535 120535 (.mapped, [966]) .leaf) 120536 120536 (.mapped, [967]) .leaf) 120537 120537 (.mapped, [968]) (.node .leaf 120538 120538 (.mapped, [969]) .leaf)) 120539 120539 (.mapped, [8706]) (.node (.node .leaf 120540 120540 (.mapped, [949]) .leaf) 120541 120541 (.mapped, [952]) (.node .leaf 120542 120542 (.mapped, [954]) .leaf))) 120543 120543 (.mapped, [966]) (.node (.node (.node .leaf 120544 120544 (.mapped, [961]) .leaf) 120545 120545 (.mapped, [960]) (.node .leaf 120546 120546 (.mapped, [945]) .leaf)) 120547 120547 (.mapped, [946]) (.node (.node .leaf 120548 120548 (.mapped, [947]) .leaf) 120549 120549 (.mapped, [948]) (.node .leaf 120550 120550 (.mapped, [949]) .leaf)))) 120551 120551 (.mapped, [950]) (.node (.node (.node (.node (.node .leaf 120552 120552 (.mapped, [951]) .leaf) 120553 120553 (.mapped, [952]) .leaf) 120554 120554 (.mapped, [953]) (.node .leaf 120555 120555 (.mapped, [954]) .leaf)) 120556 120556 (.mapped, [955]) (.node (.node .leaf 120557 120557 (.mapped, [956]) .leaf) 120558 120558 (.mapped, [957]) (.node .leaf 120559 120559 (.mapped, [958]) .leaf))) 120560 120560 (.mapped, [959]) (.node (.node (.node .leaf 120561 120561 (.mapped, [960]) .leaf) 120562 120562 (.mapped, [961]) (.node .leaf 120563 120563 (.mapped, [952]) .leaf)) 120564 120564 (.mapped, [963]) (.node (.node .leaf 120565 120565 (.mapped, [964]) .leaf) 120566 120566 (.mapped, [965]) (.node .leaf 120567 120567 (.mapped, [966]) .leaf))))) 120568 120568 (.mapped, [967]) (.node (.node (.node (.node (.node (.node .leaf 120569 120569 (.mapped, [968]) .leaf) 120570 120570 (.mapped, [969]) .leaf) 120571 120571 (.mapped, [8711]) (.node .leaf 120572 120572 (.mapped, [945]) .leaf)) 120573 120573 (.mapped, [946]) (.node (.node .leaf 120574 120574 (.mapped, [947]) .leaf) 120575 120575 (.mapped, [948]) (.node .leaf 120576 120576 (.mapped, [949]) .leaf))) 120577 120577 (.mapped, [950]) (.node (.node (.node .leaf 120578 120578 (.mapped, [951]) .leaf) 120579 120579 (.mapped, [952]) (.node .leaf 120580 120580 (.mapped, [953]) .leaf)) 120581 120581 (.mapped, [954]) (.node (.node .leaf 120582 120582 (.mapped, [955]) .leaf) 120583 120583 (.mapped, [956]) (.node .leaf 120584 120584 (.mapped, [957]) .leaf)))) 120585 120585 (.mapped, [958]) (.node (.node (.node (.node (.node .leaf 120586 120586 (.mapped, [959]) .leaf) 120587 120587 (.mapped, [960]) .leaf) 120588 120588 (.mapped, [961]) (.node .leaf 120589 120590 (.mapped, [963]) .leaf)) 120591 120591 (.mapped, [964]) (.node (.node .leaf 120592 120592 (.mapped, [965]) .leaf) 120593 120593 (.mapped, [966]) (.node .leaf 120594 120594 (.mapped, [967]) .leaf))) 120595 120595 (.mapped, [968]) (.node (.node (.node .leaf 120596 120596 (.mapped, [969]) .leaf) 120597 120597 (.mapped, [8706]) (.node .leaf 120598 120598 (.mapped, [949]) .leaf)) 120599 120599 (.mapped, [952]) (.node (.node .leaf 120600 120600 (.mapped, [954]) .leaf) 120601 120601 (.mapped, [966]) (.node .leaf 120602 120602 (.mapped, [961]) .leaf)))))) 120603 120603 (.mapped, [960]) (.node (.node (.node (.node (.node (.node (.node .leaf 120604 120604 (.mapped, [945]) .leaf) 120605 120605 (.mapped, [946]) .leaf) 120606 120606 (.mapped, [947]) (.node .leaf 120607 120607 (.mapped, [948]) .leaf)) 120608 120608 (.mapped, [949]) (.node (.node .leaf 120609 120609 (.mapped, [950]) .leaf) 120610 120610 (.mapped, [951]) (.node .leaf 120611 120611 (.mapped, [952]) .leaf))) 120612 120612 (.mapped, [953]) (.node (.node (.node .leaf 120613 120613 (.mapped, [954]) .leaf) 120614 120614 (.mapped, [955]) (.node .leaf 120615 120615 (.mapped, [956]) .leaf)) 120616 120616 (.mapped, [957]) (.node (.node .leaf 120617 120617 (.mapped, [958]) .leaf) 120618 120618 (.mapped, [959]) (.node .leaf 120619 120619 (.mapped, [960]) .leaf)))) 120620 120620 (.mapped, [961]) (.node (.node (.node (.node (.node .leaf 120621 120621 (.mapped, [952]) .leaf) 120622 120622 (.mapped, [963]) .leaf) 120623 120623 (.mapped, [964]) (.node .leaf 120624 120624 (.mapped, [965]) .leaf)) 120625 120625 (.mapped, [966]) (.node (.node .leaf 120626 120626 (.mapped, [967]) .leaf) 120627 120627 (.mapped, [968]) (.node .leaf 120628 120628 (.mapped, [969]) .leaf))) 120629 120629 (.mapped, [8711]) (.node (.node (.node .leaf 120630 120630 (.mapped, [945]) .leaf) 120631 120631 (.mapped, [946]) (.node .leaf 120632 120632 (.mapped, [947]) .leaf)) 120633 120633 (.mapped, [948]) (.node (.node .leaf 120634 120634 (.mapped, [949]) .leaf) 120635 120635 (.mapped, [950]) (.node .leaf 120636 120636 (.mapped, [951]) .leaf))))) 120637 120637 (.mapped, [952]) (.node (.node (.node (.node (.node (.node .leaf 120638 120638 (.mapped, [953]) .leaf) 120639 120639 (.mapped, [954]) .leaf) 120640 120640 (.mapped, [955]) (.node .leaf 120641 120641 (.mapped, [956]) .leaf)) 120642 120642 (.mapped, [957]) (.node (.node .leaf 120643 120643 (.mapped, [958]) .leaf) 120644 120644 (.mapped, [959]) (.node .leaf 120645 120645 (.mapped, [960]) .leaf))) 120646 120646 (.mapped, [961]) (.node (.node (.node .leaf 120647 120648 (.mapped, [963]) .leaf) 120649 120649 (.mapped, [964]) (.node .leaf 120650 120650 (.mapped, [965]) .leaf)) 120651 120651 (.mapped, [966]) (.node (.node .leaf 120652 120652 (.mapped, [967]) .leaf) 120653 120653 (.mapped, [968]) (.node .leaf 120654 120654 (.mapped, [969]) .leaf)))) 120655 120655 (.mapped, [8706]) (.node (.node (.node (.node (.node .leaf 120656 120656 (.mapped, [949]) .leaf) 120657 120657 (.mapped, [952]) .leaf) 120658 120658 (.mapped, [954]) (.node .leaf 120659 120659 (.mapped, [966]) .leaf)) 120660 120660 (.mapped, [961]) (.node (.node .leaf 120661 120661 (.mapped, [960]) .leaf) 120662 120662 (.mapped, [945]) (.node .leaf 120663 120663 (.mapped, [946]) .leaf))) 120664 120664 (.mapped, [947]) (.node (.node (.node .leaf 120665 120665 (.mapped, [948]) .leaf) 120666 120666 (.mapped, [949]) (.node .leaf 120667 120667 (.mapped, [950]) .leaf)) 120668 120668 (.mapped, [951]) (.node (.node .leaf 120669 120669 (.mapped, [952]) .leaf) 120670 120670 (.mapped, [953]) (.node .leaf 120671 120671 (.mapped, [954]) .leaf))))))))

def idnaTable27 : RTree (Status × List Nat) := (.node (.node (.node (.node (.node (.node (.node (.node (.node .leaf 120673 120673 (.mapped, [956]) .leaf) 120674 120674 (.mapped, [957]) .leaf) 120675 120675 (.mapped, [958]) (.node .leaf 120676 120676 (.mapped, [959]) .leaf)) 120677 120677 (.mapped, [960]) (.node (.node .leaf 120678 120678 (.mapped, [961]) .leaf) 120679 120679 (.mapped, [952]) (.node .leaf 120680 120680 (.mapped, [963]) .leaf))) 120681 120681 (.mapped, [964]) (.node (.node (.node .leaf 120682 120682 (.mapped, [965]) .leaf) 120683 120683 (.mapped, [966]) (.node .leaf 120684 120684 (.mapped, [967]) .leaf)) 120685 120685 (.mapped, [968]) (.node (.node .leaf 120686 120686 (.mapped, [969]) .leaf) 120687 120687 (.mapped, [8711]) (.node .leaf 120688 120688 (.mapped, [945]) .leaf)))) 120689 120689 (.mapped, [946]) (.node (.node (.node (.node (.node .leaf 120690 120690 (.mapped, [947]) .leaf) 120691 120691 (.mapped, [948]) .leaf) 120692 120692 (.mapped, [949]) (.node .leaf 120693 120693 (.mapped, [950]) .leaf)) 120694 120694 (.mapped, [951]) (.node (.node .leaf 120695 120695 (.mapped, [952]) .leaf) 120696 120696 (.mapped, [953]) (.node .leaf 120697 120697 (.mapped, [954]) .leaf))) 120698 120698 (.mapped, [955]) (.node (.node (.node .leaf 120699 120699 (.mapped, [956]) .leaf) 120700 120700 (.mapped, [957]) (.node .leaf 120701 120701 (.mapped, [958]) .leaf)) 120702 120702 (.mapped, [959]) (.node (.node .leaf 120703 120703 (.mapped, [960]) .leaf) 120704 120704 (.mapped, [961]) (.node .leaf 120705 120706 (.mapped, [963]) .leaf))))) 120707 120707 (.mapped, [964]) (.node (.node (.node (.node (.node (.node .leaf 120708 120708 (.mapped, [965]) .leaf) 120709 120709 (.mapped, [966]) .leaf) 120710 120710 (.mapped, [967]) (.node .leaf 120711 120711 (.mapped, [968]) .leaf)) 120712 120712 (.mapped, [969]) (.node (.node .leaf 120713 120713 (.mapped, [8706]) .leaf) 120714 120714 (.mapped, [949]) (.node .leaf 120715 120715 (.mapped, [952]) .leaf))) 120716 120716 (.mapped, [954]) (.node (.node (.node .leaf 120717 120717 (.mapped, [966]) .leaf) 120718 120718 (.mapped, [961]) (.node .leaf 120719 120719 (.mapped, [960]) .leaf)) 120720 120720 (.mapped, [945]) (.node (.node .leaf 120721 120721 (.mapped, [946]) .leaf) 120722 120722 (.mapped, [947]) (.node .leaf 120723 120723 (.mapped, [948]) .leaf)))) 120724 120724 (.mapped, [949]) (.node (.node (.node (.node (.node .leaf 120725 120725 (.mapped, [950]) .leaf) 120726 120726 (.mapped, [951]) .leaf) 120727 120727 (.mapped, [952]) (.node .leaf 120728 120728 (.mapped, [953]) .leaf)) 120729 120729 (.mapped, [954]) (.node (.node .leaf 120730 120730 (.mapped, [955]) .leaf) 120731 120731 (.mapped, [956]) (.node .leaf 120732 120732 (.mapped, [957]) .leaf))) 120733 120733 (.mapped, [958]) (.node (.node (.node .leaf 120734 120734 (.mapped, [959]) .leaf) 120735 120735 (.mapped, [960]) (.node .leaf 120736 120736 (.mapped, [961]) .leaf)) 120737 120737 (.mapped, [952]) (.node (.node .leaf 120738 120738 (.mapped, [963]) .leaf) 120739 120739 (.mapped, [964]) (.node .leaf 120740 120740 (.mapped, [965]) .leaf)))))) 120741 120741 (.mapped, [966]) (.node (.node (.node (.node (.node (.node (.node .leaf 120742 120742 (.mapped, [967]) .leaf) 120743 120743 (.mapped, [968]) .leaf) 120744 120744 (.mapped, [969]) (.node .leaf 120745 120745 (.mapped, [8711]) .leaf)) 120746 120746 (.mapped, [945]) (.node (.node .leaf 120747 120747 (.mapped, [946]) .leaf) 120748 120748 (.mapped, [947]) (.node .leaf 120749 120749 (.mapped, [948]) .leaf))) 120750 120750 (.mapped, [949]) (.node (.node (.node .leaf 120751 120751 (.mapped, [950]) .leaf) 120752 120752 (.mapped, [951]) (.node .leaf 120753 120753 (.mapped, [952]) .leaf)) 120754 120754 (.mapped, [953]) (.node (.node .leaf 120755 120755 (.mapped, [954]) .leaf) 120756 120756 (.mapped, [955]) (.node .leaf 120757 120757 (.mapped, [956]) .leaf)))) 120758 120758 (.mapped, [957]) (.node (.node (.node (.node (.node .leaf 120759 120759 (.mapped, [958]) .leaf) 120760 120760 (.mapped, [959]) .leaf) 120761 120761 (.mapped, [960]) (.node .leaf 120762 120762 (.mapped, [961]) .leaf)) 120763 120764 (.mapped, [963]) (.node (.node .leaf 120765 120765 (.mapped, [964]) .leaf) 120766 120766 (.mapped, [965]) (.node .leaf 120767 120767 (.mapped, [966]) .leaf))) 120768 120768 (.mapped, [967]) (.node (.node (.node .leaf 120769 120769 (.mapped, [968]) .leaf) 120770 120770 (.mapped, [969]) (.node .leaf 120771 120771 (.mapped, [8706]) .leaf)) 120772 120772 (.mapped, [949]) (.node (.node .leaf 120773 120773 (.mapped, [952]) .leaf) 120774 120774 (.mapped, [954]) (.node .leaf 120775 120775 (.mapped, [966]) .leaf))))) 120776 120776 (.mapped, [961]) (.node (.node (.node (.node (.node (.node .leaf 120777 120777 (.mapped, [960]) .leaf) 120778 120779 (.mapped, [989]) .leaf) 120780 120781 (.disallowed, []) (.node .leaf 120782 120782 (.mapped, [48]) .leaf)) 120783 120783 (.mapped, [49]) (.node (.node .leaf 120784 120784 (.mapped, [50]) .leaf) 120785 120785 (.mapped, [51]) (.node .leaf 120786 120786 (.mapped, [52]) .leaf))) 120787 120787 (.mapped, [53]) (.node (.node (.node .leaf 120788 120788 (.mapped, [54]) .leaf) 120789 120789 (.mapped, [55]) (.node .leaf 120790 120790 (.mapped, [56]) .leaf)) 120791 120791 (.mapped, [57]) (.node (.node .leaf 120792 120792 (.mapped, [48]) .leaf) 120793 120793 (.mapped, [49]) (.node .leaf 120794 120794 (.mapped, [50]) .leaf)))) 120795 120795 (.mapped, [51]) (.node (.node (.node (.node (.node .leaf 120796 120796 (.mapped, [52]) .leaf) 120797 120797 (.mapped, [53]) .leaf) 120798 120798 (.mapped, [54]) (.node .leaf 120799 120799 (.mapped, [55]) .leaf)) 120800 120800 (.mapped, [56]) (.node (.node .leaf 120801 120801 (.mapped, [57]) .leaf) 120802 120802 (.mapped, [48]) (.node .leaf 120803 120803 (.mapped, [49]) .leaf))) 120804 120804 (.mapped, [50]) (.node (.node (.node .leaf 120805 120805 (.mapped, [51]) .leaf) 120806 120806 (.mapped, [52]) (.node .leaf 120807 120807 (.mapped, [53]) .leaf)) 120808 120808 (.mapped, [54]) (.node (.node .leaf 120809 120809 (.mapped, [55]) .leaf) 120810 120810 (.mapped, [56]) (.node .leaf 120811 120811 (.mapped, [57]) .leaf))))))) 120812 120812 (.mapped, [48]) (.node (.node (.node (.node (.node (.node (.node (.node .leaf 120813 120813 (.mapped, [49]) .leaf) 120814 120814 (.mapped, [50]) .leaf) 120815 120815 (.mapped, [51]) (.node .leaf 120816 120816 (.mapped, [52]) .leaf)) 120817 120817 (.mapped, [53]) (.node (.node .leaf 120818 120818 (.mapped, [54]) .leaf) 120819 120819 (.mapped, [55]) (.node .leaf 120820 120820 (.mapped, [56]) .leaf))) 120821 120821 (.mapped, [57]) (.node (.node (.node .leaf 120822 120822 (.mapped, [48]) .leaf) 120823 120823 (.mapped, [49]) (.node .leaf 120824 120824 (.mapped, [50]) .leaf)) 120825 120825 (.mapped, [51]) (.node (.node .leaf 120826 120826 (.mapped, [52]) .leaf) 120827 120827 (.mapped, [53]) (.node .leaf 120828 120828 (.mapped, [54]) .leaf)))) 120829 120829 (.mapped, [55]) (.node (.node (.node (.node (.node .leaf 120830 120830 (.mapped, [56]) .leaf) 120831 120831 (.mapped, [57]) .leaf) 120832 121343 (.valid, []) (.node .leaf 121344 121398 (.valid, []) .leaf)) 121399 121402 (.valid, []) (.node (.node .leaf 121403 121452 (.valid, []) .leaf) 121453 121460 (.valid, []) (.node .leaf 121461 121461 (.valid, []) .leaf))) 121462 121475 (.valid, []) (.node (.node (.node .leaf 121476 121476 (.valid, []) .leaf) 121477 121483 (.valid, []) (.node .leaf 121484 121498 (.disallowed, []) .leaf)) 121499 121503 (.valid, []) (.node (.node .leaf 121504 121504 (.disallowed, []) .leaf) 121505 121519 (.valid, []) (.node .leaf 121520 122879 (.disallowed, []) .leaf))))) 122880 122886 (.valid, []) (.node (.node (.node (.node (.node (.node .leaf 122887 122887 (.disallowed, []) .leaf) 122888 122904 (.valid, []) .leaf) 122905 122906 (.disallowed, []) (.node .leaf 122907 122913 (.valid, []) .leaf)) 122914 122914 (.disallowed, []) (.node (.node .leaf 122915 122916 (.valid, []) .leaf) 122917 122917 (.disallowed, []) (.node .leaf 122918 122922 (.valid, []) .leaf))) 122923 123135 (.disallowed, []) (.node (.node (.node .leaf 123136 123180 (.valid, []) .leaf) 123181 123183 (.disallowed, []) (.node .leaf 123184 123197 (.valid, []) .leaf)) 123198 123199 (.disallowed, []) (.node (.node .leaf 123200 123209 (.valid, []) .leaf) 123210 123213 (.disallowed, []) (.node .leaf 123214 123214 (.valid, []) .leaf)))) 123215 123215 (.valid, []) (.node (.node (.node (.node (.node .leaf 123216 123583 (.disallowed, []) .leaf) 123584 123641 (.valid, []) .leaf) 123642 123646 (.disallowed, []) (.node .leaf 123647 123647 (.valid, []) .leaf)) 123648 124927 (.disallowed, []) (.node (.node .leaf 124928 125124 (.valid, []) .leaf) 125125 125126 (.disallowed, []) (.node .leaf 125127 125135 (.valid, []) .leaf))) 125136 125142 (.valid, []) (.node (.node (.node .leaf 125143 125183 (.disallowed, []) .leaf) 125184 125184 (.mapped, [125218]) (.node .leaf 125185 125185 (.mapped, [125219]) .leaf)) 125186 125186 (.mapped, [125220]) (.node (.node .leaf 125187 125187 (.mapped, [125221]) .leaf) 125188 125188 (.mapped, [125222]) (.node .leaf 125189 125189 (.mapped, [125223]) .leaf)))))) 125190 125190 (.mapped, [125224]) (.node (.node (.node (.node (.node (.node (.node .leaf 125191 125191 (.mapped, [125225]) .leaf) 125192 125192 (.mapped, [125226]) .leaf) 125193 125193 (.mapped, [125227]) (.node .leaf 125194 125194 (.mapped, [125228]) .leaf)) 125195 125195 (.mapped, [125229]) (.node (.node .leaf 125196 125196 (.mapped, [125230]) .leaf) 125197 125197 (.mapped, [125231]) (.node .leaf 125198 125198 (.mapped, [125232]) .leaf))) 125199 125199 (.mapped, [125233]) (.node (.node (.node .leaf 125200 125200 (.mapped, [125234]) .leaf) 125201 125201 (.mapped, [125235]) (.node .leaf 125202 125202 (.mapped, [125236]) .leaf)) 125203 125203 (.mapped, [125237]) (.node (.node .leaf 125204 125204 (.mapped, [125238]) .leaf) 125205 125205 (.mapped, [125239]) (.node .leaf 125206 125206 (.mapped, [125240]) .leaf)))) 125207 125207 (.mapped, [125241]) (.node (.node (.node (.node (.node .leaf 125208 125208 (.mapped, [125242]) .leaf) 125209 125209 (.mapped, [125243]) .leaf) 125210 125210 (.mapped, [125244]) (.node .leaf 125211 125211 (.mapped, [125245]) .leaf)) 125212 125212 (.mapped, [125246]) (.node (.node .leaf 125213 125213 (.mapped, [125247]) .leaf) 125214 125214 (.mapped, [125248]) (.node .leaf 125215 125215 (.mapped, [125249]) .leaf))) 125216 125216 (.mapped, [125250]) (.node (.node (.node .leaf 125217 125217 (.mapped, [125251]) .leaf) 125218 125258 (.valid, []) (.node .leaf 125259 125259 (.valid, []) .leaf)) 125260 125263 (.disallowed, []) (.node (.node .leaf 125264 125273 (.valid, []) .leaf) 125274 125277 (.disallowed, []) (.node .leaf 125278 125279 (.valid, []) .leaf))))) 125280 126064 (.disallowed, []) (.node (.node (.node (.node (.node (.node .leaf 126065 126132 (.valid, []) .leaf) 126133 126208 (.disallowed, []) .leaf) 126209 126269 (.valid, []) (.node .leaf 126270 126463 (.disallowed, []) .leaf)) 126464 126464 (.mapped, [1575]) (.node (.node .leaf 126465 126465 (.mapped, [1576]) .leaf) 126466 126466 (.mapped, [1580]) (.node .leaf 126467 126467 (.mapped, [1583]) .leaf))) 126468 126468 (.disallowed, []) (.node (.node (.node .leaf 126469 126469 (.mapped, [1608]) .leaf) 126470 126470 (.mapped, [1586]) (.node .leaf 126471 126471 (.mapped, [1581]) .leaf)) 126472 126472 (.mapped, [1591]) (.node (.node .leaf 126473 126473 (.mapped, [1610]) .leaf) 126474 126474 (.mapped, [1603]) (.node .leaf 126475 126475 (.mapped, [1604]) .leaf)))) 126476 126476 (.mapped, [1605]) (.node (.node (.node (.node (.node .leaf 126477 126477 (.mapped, [1606]) .leaf) 126478 126478 (.mapped, [1587]) .leaf) 126479 126479 (.mapped, [1593]) (.node .leaf 126480 126480 (.mapped, [1601]) .leaf)) 126481 126481 (.mapped, [1589]) (.node (.node .leaf 126482 126482 (.mapped, [1602]) .leaf) 126483 126483 (.mapped, [1585]) (.node .leaf 126484 126484 (.mapped, [1588]) .leaf))) 126485 126485 (.mapped, [1578]) (.node (.node (.node .leaf 126486 126486 (.mapped, [1579]) .leaf) 126487 126487 (.mapped, [1582]) (.node .leaf 126488 126488 (.mapped, [1584]) .leaf)) 126489 126489 (.mapped, [1590]) (.node (.node .leaf 126490 126490 (.mapped, [1592]) .leaf) 126491 126491 (.mapped, [1594]) (.node .leaf 126492 126492 (.mapped, [1646]) .leaf))))))))

def idnaTable28 : RTree (Status × List Nat) := (.node (.node (.node (.node (.node (.node (.node (.node (.node .leaf 126494 126494 (.mapped, [1697]) .leaf) 126495 126495 (.mapped, [1647]) .leaf) 126496 126496 (.disallowed, []) (.node .leaf 126497 126497 (.mapped, [1576]) .leaf)) 126498 126498 (.mapped, [1580]) (.node (.node .leaf 126499 126499 (.disallowed, []) .leaf) 126500 126500 (.mapped, [1607]) (.node .leaf 126501 126502 (.disallowed, []) .leaf))) 126503 126503 (.mapped, [1581]) (.node (.node (.node (.node .leaf 126504 126504 (.disallowed, []) .leaf) 126505 126505 (.mapped, [1610]) .leaf) 126506 126506 (.mapped, [1603]) (.node .leaf 126507 126507 (.mapped, [1604]) .leaf)) 126508 126508 (.mapped, [1605]) (.node (.node .leaf 126509 126509 (.mapped, [1606]) .leaf) 126510 126510 (.mapped, [1587]) (.node .leaf 126511 126511 (.mapped, [1593]) .leaf)))) 126512 126512 (.mapped, [1601]) (.node (.node (.node (.node (.node .leaf 126513 126513 (.mapped, [1589]) .leaf) 126514 126514 (.mapped, [1602]) .leaf) 126515 126515 (.disallowed, []) (.node .leaf 126516 126516 (.mapped, [1588]) .leaf)) 126517 126517 (.mapped, [1578]) (.node (.node .leaf 126518 126518 (.mapped, [1579]) .leaf) 126519 126519 (.mapped, [1582]) (.node .leaf 126520 126520 (.disallowed, []) .leaf))) 126521 126521 (.mapped, [1590]) (.node (.node (.node .leaf 126522 126522 (.disallowed, []) .leaf) 126523 126523 (.mapped, [1594]) (.node .leaf 126524 126529 (.disallowed, []) .leaf)) 126530 126530 (.mapped, [1580]) (.node (.node .leaf 126531 126534 (.disallowed, []) .leaf) 126535 126535 (.mapped, [1581]) (.node .leaf 126536 126536 (.disallowed, []) .leaf))))) 126537 126537 (.mapped, [1610]) (.node (.node (.node (.node (.node (.node .leaf 126538 126538 (.disallowed, []) .leaf) 126539 126539 (.mapped, [1604]) .leaf) 126540 126540 (.disallowed, []) (.node .leaf 126541 126541 (.mapped, [1606]) .leaf)) 126542 126542 (.mapped, [1587]) (.node (.node .leaf 126543 126543 (.mapped, [1593]) .leaf) 126544 126544 (.disallowed, []) (.node .leaf 126545 126545 (.mapped, [1589]) .leaf))) 126546 126546 (.mapped, [1602]) (.node (.node (.node .leaf 126547 126547 (.disallowed, []) .leaf) 126548 126548 (.mapped, [1588]) (.node .leaf 126549 126550 (.disallowed, []) .leaf)) 126551 126551 (.mapped, [1582]) (.node (.node .leaf 126552 126552 (.disallowed, []) .leaf) 126553 126553 (.mapped, [1590]) (.node .leaf 126554 126554 (.disallowed, []) .leaf)))) 126555 126555 (.mapped, [1594]) (.node (.node (.node (.node (.node .leaf 126556 126556 (.disallowed, []) .leaf) 126557 126557 (.mapped, [1722]) .leaf) 126558 126558 (.disallowed, []) (.node .leaf 126559 126559 (.mapped, [1647]) .leaf)) 126560 126560 (.disallowed, []) (.node (.node .leaf 126561 126561 (.mapped, [1576]) .leaf) 126562 126562 (.mapped, [1580]) (.node .leaf 126563 126563 (.disallowed, []) .leaf))) 126564 126564 (.mapped, [1607]) (.node (.node (.node .leaf 126565 126566 (.disallowed, []) .leaf) 126567 126567 (.mapped, [1581]) (.node .leaf 126568 126568 (.mapped, [1591]) .leaf)) 126569 126569 (.mapped, [1610]) (.node (.node .leaf 126570 126570 (.mapped, [1603]) .leaf) 126571 126571 (.disallowed, []) (.node .leaf 126572 126572 (.mapped, [1605]) .leaf)))))) 126573 126573 (.mapped, [1606]) (.node (.node (.node (.node (.node (.node (.node .leaf 126574 126574 (.mapped, [1587]) .leaf) 126575 126575 (.mapped, [1593]) .leaf) 126576 126576 (.mapped, [1601]) (.node .leaf 126577 126577 (.mapped, [1589]) .leaf)) 126578 126578 (.mapped, [1602]) (.node (.node .leaf 126579 126579 (.disallowed, []) .leaf) 126580 126580 (.mapped, [1588]) (.node .leaf 126581 126581 (.mapped, [1578]) .leaf))) 126582 126582 (.mapped, [1579]) (.node (.node (.node .leaf 126583 126583 (.mapped, [1582]) .leaf) 126584 126584 (.disallowed, []) (.node .leaf 126585 126585 (.mapped, [1590]) .leaf)) 126586 126586 (.mapped, [1592]) (.node (.node .leaf 126587 126587 (.mapped, [1594]) .leaf) 126588 126588 (.mapped, [1646]) (.node .leaf 126589 126589 (.disallowed, []) .leaf)))) 126590 126590 (.mapped, [1697]) (.node (.node (.node (.node (.node .leaf 126591 126591 (.disallowed, []) .leaf) 126592 126592 (.mapped, [1575]) .leaf) 126593 126593 (.mapped, [1576]) (.node .leaf 126594 126594 (.mapped, [1580]) .leaf)) 126595 126595 (.mapped, [1583]) (.node (.node .leaf 126596 126596 (.mapped, [1607]) .leaf) 126597 126597 (.mapped, [1608]) (.node .leaf 126598 126598 (.mapped, [1586]) .leaf))) 126599 126599 (.mapped, [1581]) (.node (.node (.node .leaf 126600 126600 (.mapped, [1591]) .leaf) 126601 126601 (.mapped, [1610]) (.node .leaf 126602 126602 (.disallowed, []) .leaf)) 126603 126603 (.mapped, [1604]) (.node (.node .leaf 126604 126604 (.mapped, [1605]) .leaf) 126605 126605 (.mapped, [1606]) (.node .leaf 126606 126606 (.mapped, [1587]) .leaf))))) 126607 126607 (.mapped, [1593]) (.node (.node (.node (.node (.node (.node .leaf 126608 126608 (.mapped, [1601]) .leaf) 126609 126609 (.mapped, [1589]) .leaf) 126610 126610 (.mapped, [1602]) (.node .leaf 126611 126611 (.mapped, [1585]) .leaf)) 126612 126612 (.mapped, [1588]) (.node (.node .leaf 126613 126613 (.mapped, [1578]) .leaf) 126614 126614 (.mapped, [1579]) (.node .leaf 126615 126615 (.mapped, [1582]) .leaf))) 126616 126616 (.mapped, [1584]) (.node (.node (.node .leaf 126617 126617 (.mapped, [1590]) .leaf) 126618 126618 (.mapped, [1592]) (.node .leaf 126619 126619 (.mapped, [1594]) .leaf)) 126620 126624 (.disallowed, []) (.node (.node .leaf 126625 126625 (.mapped, [1576]) .leaf) 126626 126626 (.mapped, [1580]) (.node .leaf 126627 126627 (.mapped, [1583]) .leaf)))) 126628 126628 (.disallowed, []) (.node (.node (.node (.node (.node .leaf 126629 126629 (.mapped, [1608]) .leaf) 126630 126630 (.mapped, [1586]) .leaf) 126631 126631 (.mapped, [1581]) (.node .leaf 126632 126632 (.mapped, [1591]) .leaf)) 126633 126633 (.mapped, [1610]) (.node (.node .leaf 126634 126634 (.disallowed, []) .leaf) 126635 126635 (.mapped, [1604]) (.node .leaf 126636 126636 (.mapped, [1605]) .leaf))) 126637 126637 (.mapped, [1606]) (.node (.node (.node .leaf 126638 126638 (.mapped, [1587]) .leaf) 126639 126639 (.mapped, [1593]) (.node .leaf 126640 126640 (.mapped, [1601]) .leaf)) 126641 126641 (.mapped, [1589]) (.node (.node .leaf 126642 126642 (.mapped, [1602]) .leaf) 126643 126643 (.mapped, [1585]) (.node .leaf 126644 126644 (.mapped, [1588]) .leaf))))))) 126645 126645 (.mapped, [1578]) (.node (.node (.node (.node (.node (.node (.node (.node .leaf 126646 126646 (.mapped, [1579]) .leaf) 126647 126647 (.mapped, [1582]) .leaf) 126648 126648 (.mapped, [1584]) (.node .leaf 126649 126649 (.mapped, [1590]) .leaf)) 126650 126650 (.mapped, [1592]) (.node (.node .leaf 126651 126651 (.mapped, [1594]) .leaf) 126652 126703 (.disallowed, []) (.node .leaf 126704 126705 (.valid, []) .leaf))) 126706 126975 (.disallowed, []) (.node (.node (.node .leaf 126976 127019 (.valid, []) .leaf) 127020 127023 (.disallowed, []) (.node .leaf 127024 127123 (.valid, []) .leaf)) 127124 127135 (.disallowed, []) (.node (.node .leaf 127136 127150 (.valid, []) .leaf) 127151 127152 (.disallowed, []) (.node .leaf 127153 127166 (.valid, []) .leaf)))) 127167 127167 (.valid, []) (.node (.node (.node (.node (.node .leaf 127168 127168 (.disallowed, []) .leaf) 127169 127183 (.valid, []) .leaf) 127184 127184 (.disallowed, []) (.node .leaf 127185 127199 (.valid, []) .leaf)) 127200 127221 (.valid, []) (.node (.node .leaf 127222 127231 (.disallowed, []) .leaf) 127232 127232 (.disallowed, []) (.node .leaf 127233 127233 (.std3Mapped, [48, 44]) .leaf))) 127234 127234 (.std3Mapped, [49, 44]) (.node (.node (.node .leaf 127235 127235 (.std3Mapped, [50, 44]) .leaf) 127236 127236 (.std3Mapped, [51, 44]) (.node .leaf 127237 127237 (.std3Mapped, [52, 44]) .leaf)) 127238 127238 (.std3Mapped, [53, 44]) (.node (.node .leaf 127239 127239 (.std3Mapped, [54, 44]) .leaf) 127240 127240 (.std3Mapped, [55, 44]) (.node .leaf 127241 127241 (.std3Mapped, [56, 44]) .leaf))))) 127242 127242 (.std3Mapped, [57, 44]) (.node (.node (.node (.node (.node (.node .leaf 127243 127244 (.valid, []) .leaf) 127245 127247 (.valid, []) .leaf) 127248 127248 (.std3Mapped, [40, 97, 41]) (.node .leaf 127249 127249 (.std3Mapped, [40, 98, 41]) .leaf)) 127250 127250 (.std3Mapped, [40, 99, 41]) (.node (.node .leaf 127251 127251 (.std3Mapped, [40, 100, 41]) .leaf) 127252 127252 (.std3Mapped, [40, 101, 41]) (.node .leaf 127253 127253 (.std3Mapped, [40, 102, 41]) .leaf))) 127254 127254 (.std3Mapped, [40, 103, 41]) (.node (.node (.node .leaf 127255 127255 (.std3Mapped, [40, 104, 41]) .leaf) 127256 127256 (.std3Mapped, [40, 105, 41]) (.node .leaf 127257 127257 (.std3Mapped, [40, 106, 41]) .leaf)) 127258 127258 (.std3Mapped, [40, 107, 41]) (.node (.node .leaf 127259 127259 (.std3Mapped, [40, 108, 41]) .leaf) 127260 127260 (.std3Mapped, [40, 109, 41]) (.node .leaf 127261 127261 (.std3Mapped, [40, 110, 41]) .leaf)))) 127262 127262 (.std3Mapped, [40, 111, 41]) (.node (.node (.node (.node (.node .leaf 127263 127263 (.std3Mapped, [40, 112, 41]) .leaf) 127264 127264 (.std3Mapped, [40, 113, 41]) .leaf) 127265 127265 (.std3Mapped, [40, 114, 41]) (.node .leaf 127266 127266 (.std3Mapped, [40, 115, 41]) .leaf)) 127267 127267 (.std3Mapped, [40, 116, 41]) (.node (.node .leaf 127268 127268 (.std3Mapped, [40, 117, 41]) .leaf) 127269 127269 (.std3Mapped, [40, 118, 41]) (.node .leaf 127270 127270 (.std3Mapped, [40, 119, 41]) .leaf))) 127271 127271 (.std3Mapped, [40, 120, 41]) (.node (.node (.node .leaf 127272 127272 (.std3Mapped, [40, 121, 41]) .leaf) 127273 127273 (.std3Mapped, [40, 122, 41]) (.node .leaf 127274 127274 (.mapped, [12308, 115, 12309]) .leaf)) 127275 127275 (.mapped, [99]) (.node (.node .leaf 127276 127276 (.mapped, [114]) .leaf) 127277 127277 (.mapped, [99, 100]) (.node .leaf 127278 127278 (.mapped, [119, 122]) .leaf)))))) 127279 127279 (.valid, []) (.node (.node (.node (.node (.node (.node (.node .leaf 127280 127280 (.mapped, [97]) .leaf) 127281 127281 (.mapped, [98]) .leaf) 127282 127282 (.mapped, [99]) (.node .leaf 127283 127283 (.mapped, [100]) .leaf)) 127284 127284 (.mapped, [101]) (.node (.node .leaf 127285 127285 (.mapped, [102]) .leaf) 127286 127286 (.mapped, [103]) (.node .leaf 127287 127287 (.mapped, [104]) .leaf))) 127288 127288 (.mapped, [105]) (.node (.node (.node .leaf 127289 127289 (.mapped, [106]) .leaf) 127290 127290 (.mapped, [107]) (.node .leaf 127291 127291 (.mapped, [108]) .leaf)) 127292 127292 (.mapped, [109]) (.node (.node .leaf 127293 127293 (.mapped, [110]) .leaf) 127294 127294 (.mapped, [111]) (.node .leaf 127295 127295 (.mapped, [112]) .leaf)))) 127296 127296 (.mapped, [113]) (.node (.node (.node (.node (.node .leaf 127297 127297 (.mapped, [114]) .leaf) 127298 127298 (.mapped, [115]) .leaf) 127299 127299 (.mapped, [116]) (.node .leaf 127300 127300 (.mapped, [117]) .leaf)) 127301 127301 (.mapped, [118]) (.node (.node .leaf 127302 127302 (.mapped, [119]) .leaf) 127303 127303 (.mapped, [120]) (.node .leaf 127304 127304 (.mapped, [121]) .leaf))) 127305 127305 (.mapped, [122]) (.node (.node (.node .leaf 127306 127306 (.mapped, [104, 118]) .leaf) 127307 127307 (.mapped, [109, 118]) (.node .leaf 127308 127308 (.mapped, [115, 100]) .leaf)) 127309 127309 (.mapped, [115, 115]) (.node (.node .leaf 127310 127310 (.mapped, [112, 112, 118]) .leaf) 127311 127311 (.mapped, [119, 99]) (.node .leaf 127312 127318 (.valid, []) .leaf))))) 127319 127319 (.valid, []) (.node (.node (.node (.node (.node (.node .leaf 127320 127326 (.valid, []) .leaf) 127327 127327 (.valid, []) .leaf) 127328 127337 (.valid, []) (.node .leaf 127338 127338 (.mapped, [109, 99]) .leaf)) 127339 127339 (.mapped, [109, 100]) (.node (.node .leaf 127340 127340 (.mapped, [109, 114]) .leaf) 127341 127343 (.valid, []) (.node .leaf 127344 127352 (.valid, []) .leaf))) 127353 127353 (.valid, []) (.node (.node (.node .leaf 127354 127354 (.valid, []) .leaf) 127355 127356 (.valid, []) (.node .leaf 127357 127358 (.valid, []) .leaf)) 127359 127359 (.valid, []) (.node (.node .leaf 127360 127369 (.valid, []) .leaf) 127370 127373 (.valid, []) (.node .leaf 127374 127375 (.valid, []) .leaf)))) 127376 127376 (.mapped, [100, 106]) (.node (.node (.node (.node (.node .leaf 127377 127386 (.valid, []) .leaf) 127387 127404 (.valid, []) .leaf) 127405 127405 (.valid, []) (.node .leaf 127406 127461 (.disallowed, []) .leaf)) 127462 127487 (.valid, []) (.node (.node .leaf 127488 127488 (.mapped, [12411, 12363]) .leaf) 127489 127489 (.mapped, [12467, 12467]) (.node .leaf 127490 127490 (.mapped, [12469]) .leaf))) 127491 127503 (.disallowed, []) (.node (.node (.node .leaf 127504 127504 (.mapped, [25163]) .leaf) 127505 127505 (.mapped, [23383]) (.node .leaf 127506 127506 (.mapped, [21452]) .leaf)) 127507 127507 (.mapped, [12487]) (.node (.node .leaf 127508 127508 (.mapped, [20108]) .leaf) 127509 127509 (.mapped, [22810]) (.node .leaf 127510 127510 (.mapped, [35299]) .leaf))))))))

def idnaTable29 : RTree (Status × List Nat) := (.node (.node (.node (.node (.node (.node (.node (.node (.node .leaf 127512 127512 (.mapped, [20132]) .leaf) 127513 127513 (.mapped, [26144]) .leaf) 127514 127514 (.mapped, [28961]) (.node .leaf 127515 127515 (.mapped, [26009]) .leaf)) 127516 127516 (.mapped, [21069]) (.node (.node .leaf 127517 127517 (.mapped, [24460]) .leaf) 127518 127518 (.mapped, [20877]) (.node .leaf 127519 127519 (.mapped, [26032]) .leaf))) 127520 127520 (.mapped, [21021]) (.node (.node (.node .leaf 127521 127521 (.mapped, [32066]) .leaf) 127522 127522 (.mapped, [29983]) (.node .leaf 127523 127523 (.mapped, [36009]) .leaf)) 127524 127524 (.mapped, [22768]) (.node (.node .leaf 127525 127525 (.mapped, [21561]) .leaf) 127526 127526 (.mapped, [28436]) (.node .leaf 127527 127527 (.mapped, [25237]) .leaf)))) 127528 127528 (.mapped, [25429]) (.node (.node (.node (.node (.node .leaf 127529 127529 (.mapped, [19968]) .leaf) 127530 127530 (.mapped, [19977]) .leaf) 127531 127531 (.mapped, [36938]) (.node .leaf 127532 127532 (.mapped, [24038]) .leaf)) 127533 127533 (.mapped, [20013]) (.node (.node .leaf 127534 127534 (.mapped, [21491]) .leaf) 127535 127535 (.mapped, [25351]) (.node .leaf 127536 127536 (.mapped, [36208]) .leaf))) 127537 127537 (.mapped, [25171]) (.node (.node (.node .leaf 127538 127538 (.mapped, [31105]) .leaf) 127539 127539 (.mapped, [31354]) (.node .leaf 127540 127540 (.mapped, [21512]) .leaf)) 127541 127541 (.mapped, [28288]) (.node (.node .leaf 127542 127542 (.mapped, [26377]) .leaf) 127543 127543 (.mapped, [26376]) (.node .leaf 127544 127544 (.mapped, [30003]) .leaf))))) 127545 127545 (.mapped, [21106]) (.node (.node (.node (.node (.node (.node .leaf 127546 127546 (.mapped, [21942]) .leaf) 127547 127547 (.mapped, [37197]) .leaf) 127548 127551 (.disallowed, []) (.node .leaf 127552 127552 (.mapped, [12308, 26412, 12309]) .leaf)) 127553 127553 (.mapped, [12308, 19977, 12309]) (.node (.node .leaf 127554 127554 (.mapped, [12308, 20108, 12309]) .leaf) 127555 127555 (.mapped, [12308, 23433, 12309]) (.node .leaf 127556 127556 (.mapped, [12308, 28857, 12309]) .leaf))) 127557 127557 (.mapped, [12308, 25171, 12309]) (.node (.node (.node .leaf 127558 127558 (.mapped, [12308, 30423, 12309]) .leaf) 127559 127559 (.mapped, [12308, 21213, 12309]) (.node .leaf 127560 127560 (.mapped, [12308, 25943, 12309]) .leaf)) 127561 127567 (.disallowed, []) (.node (.node .leaf 127568 127568 (.mapped, [24471]) .leaf) 127569 127569 (.mapped, [21487]) (.node .leaf 127570 127583 (.disallowed, []) .leaf)))) 127584 127589 (.valid, []) (.node (.node (.node (.node (.node .leaf 127590 127743 (.disallowed, []) .leaf) 127744 127776 (.valid, []) .leaf) 127777 127788 (.valid, []) (.node .leaf 127789 127791 (.valid, []) .leaf)) 127792 127797 (.valid, []) (.node (.node .leaf 127798 127798 (.valid, []) .leaf) 127799 127868 (.valid, []) (.node .leaf 127869 127869 (.valid, []) .leaf))) 127870 127871 (.valid, []) (.node (.node (.node .leaf 127872 127891 (.valid, []) .leaf) 127892 127903 (.valid, []) (.node .leaf 127904 127940 (.valid, []) .leaf)) 127941 127941 (.valid, []) (.node (.node .leaf 127942 127946 (.valid, []) .leaf) 127947 127950 (.valid, []) (.node .leaf 127951 127955 (.valid, []) .leaf)))))) 127956 127967 (.valid, []) (.node (.node (.node (.node (.node (.node (.node .leaf 127968 127984 (.valid, []) .leaf) 127985 127991 (.valid, []) .leaf) 127992 127999 (.valid, []) (.node .leaf 128000 128062 (.valid, []) .leaf)) 128063 128063 (.valid, []) (.node (.node .leaf 128064 128064 (.valid, []) .leaf) 128065 128065 (.valid, []) (.node .leaf 128066 128247 (.valid, []) .leaf))) 128248 128248 (.valid, []) (.node (.node (.node .leaf 128249 128252 (.valid, []) .leaf) 128253 128254 (.valid, []) (.node .leaf 128255 128255 (.valid, []) .leaf)) 128256 128317 (.valid, []) (.node (.node .leaf 128318 128319 (.valid, []) .leaf) 128320 128323 (.valid, []) (.node .leaf 128324 128330 (.valid, []) .leaf)))) 128331 128335 (.valid, []) (.node (.node (.node (.node (.node .leaf 128336 128359 (.valid, []) .leaf) 128360 128377 (.valid, []) .leaf) 128378 128378 (.valid, []) (.node .leaf 128379 128419 (.valid, []) .leaf)) 128420 128420 (.valid, []) (.node (.node .leaf 128421 128506 (.valid, []) .leaf) 128507 128511 (.valid, []) (.node .leaf 128512 128512 (.valid, []) .leaf))) 128513 128528 (.valid, []) (.node (.node (.node .leaf 128529 128529 (.valid, []) .leaf) 128530 128532 (.valid, []) (.node .leaf 128533 128533 (.valid, []) .leaf)) 128534 128534 (.valid, []) (.node (.node .leaf 128535 128535 (.valid, []) .leaf) 128536 128536 (.valid, []) (.node .leaf 128537 128537 (.valid, []) .leaf))))) 128538 128538 (.valid, []) (.node (.node (.node (.node (.node (.node .leaf 128539 128539 (.valid, []) .leaf) 128540 128542 (.valid, []) .leaf) 128543 128543 (.valid, []) (.node .leaf 128544 128549 (.valid, []) .leaf)) 128550 128551 (.valid, []) (.node (.node .leaf 128552 128555 (.valid, []) .leaf) 128556 128556 (.valid, []) (.node .leaf 128557 128557 (.valid, []) .leaf))) 128558 128559 (.valid, []) (.node (.node (.node .leaf 128560 128563 (.valid, []) .leaf) 128564 128564 (.valid, []) (.node .leaf 128565 128576 (.valid, []) .leaf)) 128577 128578 (.valid, []) (.node (.node .leaf 128579 128580 (.valid, []) .leaf) 128581 128591 (.valid, []) (.node .leaf 128592 128639 (.valid, []) .leaf)))) 128640 128709 (.valid, []) (.node (.node (.node (.node (.node .leaf 128710 128719 (.valid, []) .leaf) 128720 128720 (.valid, []) .leaf) 128721 128722 (.valid, []) (.node .leaf 128723 128724 (.valid, []) .leaf)) 128725 128725 (.valid, []) (.node (.node .leaf 128726 128727 (.valid, []) .leaf) 128728 128735 (.disallowed, []) (.node .leaf 128736 128748 (.valid, []) .leaf))) 128749 128751 (.disallowed, []) (.node (.node (.node .leaf 128752 128755 (.valid, []) .leaf) 128756 128758 (.valid, []) (.node .leaf 128759 128760 (.valid, []) .leaf)) 128761 128761 (.valid, []) (.node (.node .leaf 128762 128762 (.valid, []) .leaf) 128763 128764 (.valid, []) (.node .leaf 128765 128767 (.disallowed, []) .leaf))))))) 128768 128883 (.valid, []) (.node (.node (.node (.node (.node (.node (.node (.node .leaf 128884 128895 (.disallowed, []) .leaf) 128896 128980 (.valid, []) .leaf) 128981 128984 (.valid, []) (.node .leaf 128985 128991 (.disallowed, []) .leaf)) 128992 129003 (.valid, []) (.node (.node .leaf 129004 129023 (.disallowed, []) .leaf) 129024 129035 (.valid, []) (.node .leaf 129036 129039 (.disallowed, []) .leaf))) 129040 129095 (.valid, []) (.node (.node (.node .leaf 129096 129103 (.disallowed, []) .leaf) 129104 129113 (.valid, []) (.node .leaf 129114 129119 (.disallowed, []) .leaf)) 129120 129159 (.valid, []) (.node (.node .leaf 129160 129167 (.disallowed, []) .leaf) 129168 129197 (.valid, []) (.node .leaf 129198 129199 (.disallowed, []) .leaf)))) 129200 129201 (.valid, []) (.node (.node (.node (.node (.node .leaf 129202 129279 (.disallowed, []) .leaf) 129280 129291 (.valid, []) .leaf) 129292 129292 (.valid, []) (.node .leaf 129293 129295 (.valid, []) .leaf)) 129296 129304 (.valid, []) (.node (.node .leaf 129305 129310 (.valid, []) .leaf) 129311 129311 (.valid, []) (.node .leaf 129312 129319 (.valid, []) .leaf))) 129320 129327 (.valid, []) (.node (.node (.node .leaf 129328 129328 (.valid, []) .leaf) 129329 129330 (.valid, []) (.node .leaf 129331 129342 (.valid, []) .leaf)) 129343 129343 (.valid, []) (.node (.node .leaf 129344 129355 (.valid, []) .leaf) 129356 129356 (.valid, []) (.node .leaf 129357 129359 (.valid, []) .leaf))))) 129360 129374 (.valid, []) (.node (.node (.node (.node (.node (.node .leaf 129375 129387 (.valid, []) .leaf) 129388 129392 (.valid, []) .leaf) 129393 129393 (.valid, []) (.node .leaf 129394 129394 (.valid, []) .leaf)) 129395 129398 (.valid, []) (.node (.node .leaf 129399 129400 (.valid, []) .leaf) 129401 129401 (.disallowed, []) (.node .leaf 129402 129402 (.valid, []) .leaf))) 129403 129403 (.valid, []) (.node (.node (.node .leaf 129404 129407 (.valid, []) .leaf) 129408 129412 (.valid, []) (.node .leaf 129413 129425 (.valid, []) .leaf)) 129426 129431 (.valid, []) (.node (.node .leaf 129432 129442 (.valid, []) .leaf) 129443 129444 (.valid, []) (.node .leaf 129445 129450 (.valid, []) .leaf)))) 129451 129453 (.valid, []) (.node (.node (.node (.node (.node .leaf 129454 129455 (.valid, []) .leaf) 129456 129465 (.valid, []) .leaf) 129466 129471 (.valid, []) (.node .leaf 129472 129472 (.valid, []) .leaf)) 129473 129474 (.valid, []) (.node (.node .leaf 129475 129482 (.valid, []) .leaf) 129483 129483 (.valid, []) (.node .leaf 129484 129484 (.disallowed, []) .leaf))) 129485 129487 (.valid, []) (.node (.node (.node .leaf 129488 129510 (.valid, []) .leaf) 129511 129535 (.valid, []) (.node .leaf 129536 129619 (.valid, []) .leaf)) 129620 129631 (.disallowed, []) (.node (.node .leaf 129632 129645 (.valid, []) .leaf) 129646 129647 (.disallowed, []) (.node .leaf 129648 129651 (.valid, []) .leaf)))))) 129652 129652 (.valid, []) (.node (.node (.node (.node (.node (.node (.node .leaf 129653 129655 (.disallowed, []) .leaf) 129656 129658 (.valid, []) .leaf) 129659 129663 (.disallowed, []) (.node .leaf 129664 129666 (.valid, []) .leaf)) 129667 129670 (.valid, []) (.node (.node .leaf 129671 129679 (.disallowed, []) .leaf) 129680 129685 (.valid, []) (.node .leaf 129686 129704 (.valid, []) .leaf))) 129705 129711 (.disallowed, []) (.node (.node (.node .leaf 129712 129718 (.valid, []) .leaf) 129719 129727 (.disallowed, []) (.node .leaf 129728 129730 (.valid, []) .leaf)) 129731 129743 (.disallowed, []) (.node (.node .leaf 129744 129750 (.valid, []) .leaf) 129751 129791 (.disallowed, []) (.node .leaf 129792 129938 (.valid, []) .leaf)))) 129939 129939 (.disallowed, []) (.node (.node (.node (.node (.node .leaf 129940 129994 (.valid, []) .leaf) 129995 130031 (.disallowed, []) .leaf) 130032 130032 (.mapped, [48]) (.node .leaf 130033 130033 (.mapped, [49]) .leaf)) 130034 130034 (.mapped, [50]) (.node (.node .leaf 130035 130035 (.mapped, [51]) .leaf) 130036 130036 (.mapped, [52]) (.node .leaf 130037 130037 (.mapped, [53]) .leaf))) 130038 130038 (.mapped, [54]) (.node (.node (.node .leaf 130039 130039 (.mapped, [55]) .leaf) 130040 130040 (.mapped, [56]) (.node .leaf 130041 130041 (.mapped, [57]) .leaf)) 130042 131069 (.disallowed, []) (.node (.node .leaf 131070 131071 (.disallowed, []) .leaf) 131072 173782 (.valid, []) (.node .leaf 173783 173789 (.valid, []) .leaf))))) 173790 173823 (.disallowed, []) (.node (.node (.node (.node (.node (.node .leaf 173824 177972 (.valid, []) .leaf) 177973 177983 (.disallowed, []) .leaf) 177984 178205 (.valid, []) (.node .leaf 178206 178207 (.disallowed, []) .leaf)) 178208 183969 (.valid, []) (.node (.node .leaf 183970 183983 (.disallowed, []) .leaf) 183984 191456 (.valid, []) (.node .leaf 191457 194559 (.disallowed, []) .leaf))) 194560 194560 (.mapped, [20029]) (.node (.node (.node .leaf 194561 194561 (.mapped, [20024]) .leaf) 194562 194562 (.mapped, [20033]) (.node .leaf 194563 194563 (.mapped, [131362]) .leaf)) 194564 194564 (.mapped, [20320]) (.node (.node .leaf 194565 194565 (.mapped, [20398]) .leaf) 194566 194566 (.mapped, [20411]) (.node .leaf 194567 194567 (.mapped, [20482]) .leaf)))) 194568 194568 (.mapped, [20602]) (.node (.node (.node (.node (.node .leaf 194569 194569 (.mapped, [20633]) .leaf) 194570 194570 (.mapped, [20711]) .leaf) 194571 194571 (.mapped, [20687]) (.node .leaf 194572 194572 (.mapped, [13470]) .leaf)) 194573 194573 (.mapped, [132666]) (.node (.node .leaf 194574 194574 (.mapped, [20813]) .leaf) 194575 194575 (.mapped, [20820]) (.node .leaf 194576 194576 (.mapped, [20836]) .leaf))) 194577 194577 (.mapped, [20855]) (.node (.node (.node .leaf 194578 194578 (.mapped, [132380]) .leaf) 194579 194579 (.mapped, [13497]) (.node .leaf 194580 194580 (.mapped, [20839]) .leaf)) 194581 194581 (.mapped, [20877]) (.node (.node .leaf 194582 194582 (.mapped, [132427]) .leaf) 194583 194583 (.mapped, [20887]) (.node .leaf 194584 194584 (.mapped, [20900]) .leaf))))))))

def idnaTable30 : RTree (Status × List Nat) := (.node (.node (.node (.node (.node (.node (.node (.node (.node .leaf 194586 194586 (.mapped, [20908]) .leaf) 194587 194587 (.mapped, [20917]) .leaf) 194588 194588 (.mapped, [168415]) (.node .leaf 194589 194589 (.mapped, [20981]) .leaf)) 194590 194590 (.mapped, [20995]) (.node (.node .leaf 194591 194591 (.mapped, [13535]) .leaf) 194592 194592 (.mapped, [21051]) (.node .leaf 194593 194593 (.mapped, [21062]) .leaf))) 194594 194594 (.mapped, [21106]) (.node (.node (.node .leaf 194595 194595 (.mapped, [21111]) .leaf) 194596 194596 (.mapped, [13589]) (.node .leaf 194597 194597 (.mapped, [21191]) .leaf)) 194598 194598 (.mapped, [21193]) (.node (.node .leaf 194599 194599 (.mapped, [21220]) .leaf) 194600 194600 (.mapped, [21242]) (.node .leaf 194601 194601 (.mapped, [21253]) .leaf)))) 194602 194602 (.mapped, [21254]) (.node (.node (.node (.node (.node .leaf 194603 194603 (.mapped, [21271]) .leaf) 194604 194604 (.mapped, [21321]) .leaf) 194605 194605 (.mapped, [21329]) (.node .leaf 194606 194606 (.mapped, [21338]) .leaf)) 194607 194607 (.mapped, [21363]) (.node (.node .leaf 194608 194608 (.mapped, [21373]) .leaf) 194609 194611 (.mapped, [21375]) (.node .leaf 194612 194612 (.mapped, [133676]) .leaf))) 194613 194613 (.mapped, [28784]) (.node (.node (.node .leaf 194614 194614 (.mapped, [21450]) .leaf) 194615 194615 (.mapped, [21471]) (.node .leaf 194616 194616 (.mapped, [133987]) .leaf)) 194617 194617 (.mapped, [21483]) (.node (.node .leaf 194618 194618 (.mapped, [21489]) .leaf) 194619 194619 (.mapped, [21510]) (.node .leaf 194620 194620 (.mapped, [21662]) .leaf))))) 194621 194621 (.mapped, [21560]) (.node (.node (.node (.node (.node (.node .leaf 194622 194622 (.mapped, [21576]) .leaf) 194623 194623 (.mapped, [21608]) .leaf) 194624 194624 (.mapped, [21666]) (.node .leaf 194625 194625 (.mapped, [21750]) .leaf)) 194626 194626 (.mapped, [21776]) (.node (.node .leaf 194627 194627 (.mapped, [21843]) .leaf) 194628 194628 (.mapped, [21859]) (.node .leaf 194629 194630 (.mapped, [21892]) .leaf))) 194631 194631 (.mapped, [21913]) (.node (.node (.node .leaf 194632 194632 (.mapped, [21931]) .leaf) 194633 194633 (.mapped, [21939]) (.node .leaf 194634 194634 (.mapped, [21954]) .leaf)) 194635 194635 (.mapped, [22294]) (.node (.node .leaf 194636 194636 (.mapped, [22022]) .leaf) 194637 194637 (.mapped, [22295]) (.node .leaf 194638 194638 (.mapped, [22097]) .leaf)))) 194639 194639 (.mapped, [22132]) (.node (.node (.node (.node (.node .leaf 194640 194640 (.mapped, [20999]) .leaf) 194641 194641 (.mapped, [22766]) .leaf) 194642 194642 (.mapped, [22478]) (.node .leaf 194643 194643 (.mapped, [22516]) .leaf)) 194644 194644 (.mapped, [22541]) (.node (.node .leaf 194645 194645 (.mapped, [22411]) .leaf) 194646 194646 (.mapped, [22578]) (.node .leaf 194647 194647 (.mapped, [22577]) .leaf))) 194648 194648 (.mapped, [22700]) (.node (.node (.node .leaf 194649 194649 (.mapped, [136420]) .leaf) 194650 194650 (.mapped, [22770]) (.node .leaf 194651 194651 (.mapped, [22775]) .leaf)) 194652 194652 (.mapped, [22790]) (.node (.node .leaf 194653 194653 (.mapped, [22810]) .leaf) 194654 194654 (.mapped, [22818]) (.node .leaf 194655 194655 (.mapped, [22882]) .leaf)))))) 194656 194656 (.mapped, [136872]) (.node (.node (.node (.node (.node (.node (.node .leaf 194657 194657 (.mapped, [136938]) .leaf) 194658 194658 (.mapped, [23020]) .leaf) 194659 194659 (.mapped, [23067]) (.node .leaf 194660 194660 (.mapped, [23079]) .leaf)) 194661 194661 (.mapped, [23000]) (.node (.node .leaf 194662 194662 (.mapped, [23142]) .leaf) 194663 194663 (.mapped, [14062]) (.node .leaf 194664 194664 (.disallowed, []) .leaf))) 194665 194665 (.mapped, [23304]) (.node (.node (.node .leaf 194666 194667 (.mapped, [23358]) .leaf) 194668 194668 (.mapped, [137672]) (.node .leaf 194669 194669 (.mapped, [23491]) .leaf)) 194670 194670 (.mapped, [23512]) (.node (.node .leaf 194671 194671 (.mapped, [23527]) .leaf) 194672 194672 (.mapped, [23539]) (.node .leaf 194673 194673 (.mapped, [138008]) .leaf)))) 194674 194674 (.mapped, [23551]) (.node (.node (.node (.node (.node .leaf 194675 194675 (.mapped, [23558]) .leaf) 194676 194676 (.disallowed, []) .leaf) 194677 194677 (.mapped, [23586]) (.node .leaf 194678 194678 (.mapped, [14209]) .leaf)) 194679 194679 (.mapped, [23648]) (.node (.node .leaf 194680 194680 (.mapped, [23662]) .leaf) 194681 194681 (.mapped, [23744]) (.node .leaf 194682 194682 (.mapped, [23693]) .leaf))) 194683 194683 (.mapped, [138724]) (.node (.node (.node .leaf 194684 194684 (.mapped, [23875]) .leaf) 194685 194685 (.mapped, [138726]) (.node .leaf 194686 194686 (.mapped, [23918]) .leaf)) 194687 194687 (.mapped, [23915]) (.node (.node .leaf 194688 194688 (.mapped, [23932]) .leaf) 194689 194689 (.mapped, [24033]) (.node .leaf 194690 194690 (.mapped, [24034]) .leaf))))) 194691 194691 (.mapped, [14383]) (.node (.node (.node (.node (.node (.node .leaf 194692 194692 (.mapped, [24061]) .leaf) 194693 194693 (.mapped, [24104]) .leaf) 194694 194694 (.mapped, [24125]) (.node .leaf 194695 194695 (.mapped, [24169]) .leaf)) 194696 194696 (.mapped, [14434]) (.node (.node .leaf 194697 194697 (.mapped, [139651]) .leaf) 194698 194698 (.mapped, [14460]) (.node .leaf 194699 194699 (.mapped, [24240]) .leaf))) 194700 194700 (.mapped, [24243]) (.node (.node (.node .leaf 194701 194701 (.mapped, [24246]) .leaf) 194702 194702 (.mapped, [24266]) (.node .leaf 194703 194703 (.mapped, [172946]) .leaf)) 194704 194704 (.mapped, [24318]) (.node (.node .leaf 194705 194706 (.mapped, [140081]) .leaf) 194707 194707 (.mapped, [33281]) (.node .leaf 194708 194709 (.mapped, [24354]) .leaf)))) 194710 194710 (.mapped, [14535]) (.node (.node (.node (.node (.node .leaf 194711 194711 (.mapped, [144056]) .leaf) 194712 194712 (.mapped, [156122]) .leaf) 194713 194713 (.mapped, [24418]) (.node .leaf 194714 194714 (.mapped, [24427]) .leaf)) 194715 194715 (.mapped, [14563]) (.node (.node .leaf 194716 194716 (.mapped, [24474]) .leaf) 194717 194717 (.mapped, [24525]) (.node .leaf 194718 194718 (.mapped, [24535]) .leaf))) 194719 194719 (.mapped, [24569]) (.node (.node (.node .leaf 194720 194720 (.mapped, [24705]) .leaf) 194721 194721 (.mapped, [14650]) (.node .leaf 194722 194722 (.mapped, [14620]) .leaf)) 194723 194723 (.mapped, [24724]) (.node (.node .leaf 194724 194724 (.mapped, [141012]) .leaf) 194725 194725 (.mapped, [24775]) (.node .leaf 194726 194726 (.mapped, [24904]) .leaf))))))) 194727 194727 (.mapped, [24908]) (.node (.node (.node (.node (.node (.node (.node (.node .leaf 194728 194728 (.mapped, [24910]) .leaf) 194729 194729 (.mapped, [24908]) .leaf) 194730 194730 (.mapped, [24954]) (.node .leaf 194731 194731 (.mapped, [24974]) .leaf)) 194732 194732 (.mapped, [25010]) (.node (.node .leaf 194733 194733 (.mapped, [24996]) .leaf) 194734 194734 (.mapped, [25007]) (.node .leaf 194735 194735 (.mapped, [25054]) .leaf))) 194736 194736 (.mapped, [25074]) (.node (.node (.node .leaf 194737 194737 (.mapped, [25078]) .leaf) 194738 194738 (.mapped, [25104]) (.node .leaf 194739 194739 (.mapped, [25115]) .leaf)) 194740 194740 (.mapped, [25181]) (.node (.node .leaf 194741 194741 (.mapped, [25265]) .leaf) 194742 194742 (.mapped, [25300]) (.node .leaf 194743 194743 (.mapped, [25424]) .leaf)))) 194744 194744 (.mapped, [142092]) (.node (.node (.node (.node (.node .leaf 194745 194745 (.mapped, [25405]) .leaf) 194746 194746 (.mapped, [25340]) .leaf) 194747 194747 (.mapped, [25448]) (.node .leaf 194748 194748 (.mapped, [25475]) .leaf)) 194749 194749 (.mapped, [25572]) (.node (.node .leaf 194750 194750 (.mapped, [142321]) .leaf) 194751 194751 (.mapped, [25634]) (.node .leaf 194752 194752 (.mapped, [25541]) .leaf))) 194753 194753 (.mapped, [25513]) (.node (.node (.node .leaf 194754 194754 (.mapped, [14894]) .leaf) 194755 194755 (.mapped, [25705]) (.node .leaf 194756 194756 (.mapped, [25726]) .leaf)) 194757 194757 (.mapped, [25757]) (.node (.node .leaf 194758 194758 (.mapped, [25719]) .leaf) 194759 194759 (.mapped, [14956]) (.node .leaf 194760 194760 (.mapped, [25935]) .leaf))))) 194761 194761 (.mapped, [25964]) (.node (.node (.node (.node (.node (.node .leaf 194762 194762 (.mapped, [143370]) .leaf) 194763 194763 (.mapped, [26083]) .leaf) 194764 194764 (.mapped, [26360]) (.node .leaf 194765 194765 (.mapped, [26185]) .leaf)) 194766 194766 (.mapped, [15129]) (.node (.node .leaf 194767 194767 (.mapped, [26257]) .leaf) 194768 194768 (.mapped, [15112]) (.node .leaf 194769 194769 (.mapped, [15076]) .leaf))) 194770 194770 (.mapped, [20882]) (.node (.node (.node .leaf 194771 194771 (.mapped, [20885]) .leaf) 194772 194772 (.mapped, [26368]) (.node .leaf 194773 194773 (.mapped, [26268]) .leaf)) 194774 194774 (.mapped, [32941]) (.node (.node .leaf 194775 194775 (.mapped, [17369]) .leaf) 194776 194776 (.mapped, [26391]) (.node .leaf 194777 194777 (.mapped, [26395]) .leaf)))) 194778 194778 (.mapped, [26401]) (.node (.node (.node (.node (.node .leaf 194779 194779 (.mapped, [26462]) .leaf) 194780 194780 (.mapped, [26451]) .leaf) 194781 194781 (.mapped, [144323]) (.node .leaf 194782 194782 (.mapped, [15177]) .leaf)) 194783 194783 (.mapped, [26618]) (.node (.node .leaf 194784 194784 (.mapped, [26501]) .leaf) 194785 194785 (.mapped, [26706]) (.node .leaf 194786 194786 (.mapped, [26757]) .leaf))) 194787 194787 (.mapped, [144493]) (.node (.node (.node .leaf 194788 194788 (.mapped, [26766]) .leaf) 194789 194789 (.mapped, [26655]) (.node .leaf 194790 194790 (.mapped, [26900]) .leaf)) 194791 194791 (.mapped, [15261]) (.node (.node .leaf 194792 194792 (.mapped, [26946]) .leaf) 194793 194793 (.mapped, [27043]) (.node .leaf 194794 194794 (.mapped, [27114]) .leaf)))))) 194795 194795 (.mapped, [27304]) (.node (.node (.node (.node (.node (.node (.node .leaf 194796 194796 (.mapped, [145059]) .leaf) 194797 194797 (.mapped, [27355]) .leaf) 194798 194798 (.mapped, [15384]) (.node .leaf 194799 194799 (.mapped, [27425]) .leaf)) 194800 194800 (.mapped, [145575]) (.node (.node .leaf 194801 194801 (.mapped, [27476]) .leaf) 194802 194802 (.mapped, [15438]) (.node .leaf 194803 194803 (.mapped, [27506]) .leaf))) 194804 194804 (.mapped, [27551]) (.node (.node (.node .leaf 194805 194805 (.mapped, [27578]) .leaf) 194806 194806 (.mapped, [27579]) (.node .leaf 194807 194807 (.mapped, [146061]) .leaf)) 194808 194808 (.mapped, [138507]) (.node (.node .leaf 194809 194809 (.mapped, [146170]) .leaf) 194810 194810 (.mapped, [27726]) (.node .leaf 194811 194811 (.mapped, [146620]) .leaf)))) 194812 194812 (.mapped, [27839]) (.node (.node (.node (.node (.node .leaf 194813 194813 (.mapped, [27853]) .leaf) 194814 194814 (.mapped, [27751]) .leaf) 194815 194815 (.mapped, [27926]) (.node .leaf 194816 194816 (.mapped, [27966]) .leaf)) 194817 194817 (.mapped, [28023]) (.node (.node .leaf 194818 194818 (.mapped, [27969]) .leaf) 194819 194819 (.mapped, [28009]) (.node .leaf 194820 194820 (.mapped, [28024]) .leaf))) 194821 194821 (.mapped, [28037]) (.node (.node (.node .leaf 194822 194822 (.mapped, [146718]) .leaf) 194823 194823 (.mapped, [27956]) (.node .leaf 194824 194824 (.mapped, [28207]) .leaf)) 194825 194825 (.mapped, [28270]) (.node (.node .leaf 194826 194826 (.mapped, [15667]) .leaf) 194827 194827 (.mapped, [28363]) (.node .leaf 194828 194828 (.mapped, [28359]) .leaf))))) 194829 194829 (.mapped, [147153]) (.node (.node (.node (.node (.node (.node .leaf 194830 194830 (.mapped, [28153]) .leaf) 194831 194831 (.mapped, [28526]) .leaf) 194832 194832 (.mapped, [147294]) (.node .leaf 194833 194833 (.mapped, [147342]) .leaf)) 194834 194834 (.mapped, [28614]) (.node (.node .leaf 194835 194835 (.mapped, [28729]) .leaf) 194836 194836 (.mapped, [28702]) (.node .leaf 194837 194837 (.mapped, [28699]) .leaf))) 194838 194838 (.mapped, [15766]) (.node (.node (.node .leaf 194839 194839 (.mapped, [28746]) .leaf) 194840 194840 (.mapped, [28797]) (.node .leaf 194841 194841 (.mapped, [28791]) .leaf)) 194842 194842 (.mapped, [28845]) (.node (.node .leaf 194843 194843 (.mapped, [132389]) .leaf) 194844 194844 (.mapped, [28997]) (.node .leaf 194845 194845 (.mapped, [148067]) .leaf)))) 194846 194846 (.mapped, [29084]) (.node (.node (.node (.node (.node .leaf 194847 194847 (.disallowed, []) .leaf) 194848 194848 (.mapped, [29224]) .leaf) 194849 194849 (.mapped, [29237]) (.node .leaf 194850 194850 (.mapped, [29264]) .leaf)) 194851 194851 (.mapped, [149000]) (.node (.node .leaf 194852 194852 (.mapped, [29312]) .leaf) 194853 194853 (.mapped, [29333]) (.node .leaf 194854 194854 (.mapped, [149301]) .leaf))) 194855 194855 (.mapped, [149524]) (.node (.node (.node .leaf 194856 194856 (.mapped, [29562]) .leaf) 194857 194857 (.mapped, [29579]) (.node .leaf 194858 194858 (.mapped, [16044]) .leaf)) 194859 194859 (.mapped, [29605]) (.node (.node .leaf 194860 194861 (.mapped, [16056]) .leaf) 194862 194862 (.mapped, [29767]) (.node .leaf 194863 194863 (.mapped, [29788]) .leaf))))))))

def idnaTable31 : RTree (Status × List Nat) := (.node (.node (.node (.node (.node (.node (.node (.node (.node .leaf 194865 194865 (.mapped, [29829]) .leaf) 194866 194866 (.mapped, [29898]) .leaf) 194867 194867 (.mapped, [16155]) (.node .leaf 194868 194868 (.mapped, [29988]) .leaf)) 194869 194869 (.mapped, [150582]) (.node (.node .leaf 194870 194870 (.mapped, [30014]) .leaf) 194871 194871 (.mapped, [150674]) (.node .leaf 194872 194872 (.mapped, [30064]) .leaf))) 194873 194873 (.mapped, [139679]) (.node (.node (.node .leaf 194874 194874 (.mapped, [30224]) .leaf) 194875 194875 (.mapped, [151457]) (.node .leaf 194876 194876 (.mapped, [151480]) .leaf)) 194877 194877 (.mapped, [151620]) (.node (.node .leaf 194878 194878 (.mapped, [16380]) .leaf) 194879 194879 (.mapped, [16392]) (.node .leaf 194880 194880 (.mapped, [30452]) .leaf)))) 194881 194881 (.mapped, [151795]) (.node (.node (.node (.node (.node .leaf 194882 194882 (.mapped, [151794]) .leaf) 194883 194883 (.mapped, [151833]) .leaf) 194884 194884 (.mapped, [151859]) (.node .leaf 194885 194885 (.mapped, [30494]) .leaf)) 194886 194887 (.mapped, [30495]) (.node (.node .leaf 194888 194888 (.mapped, [30538]) .leaf) 194889 194889 (.mapped, [16441]) (.node .leaf 194890 194890 (.mapped, [30603]) .leaf))) 194891 194891 (.mapped, [16454]) (.node (.node (.node .leaf 194892 194892 (.mapped, [16534]) .leaf) 194893 194893 (.mapped, [152605]) (.node .leaf 194894 194894 (.mapped, [30798]) .leaf)) 194895 194895 (.mapped, [30860]) (.node (.node .leaf 194896 194896 (.mapped, [30924]) .leaf) 194897 194897 (.mapped, [16611]) (.node .leaf 194898 194898 (.mapped, [153126]) .leaf))))) 194899 194899 (.mapped, [31062]) (.node (.node (.node (.node (.node (.node .leaf 194900 194900 (.mapped, [153242]) .leaf) 194901 194901 (.mapped, [153285]) .leaf) 194902 194902 (.mapped, [31119]) (.node .leaf 194903 194903 (.mapped, [31211]) .leaf)) 194904 194904 (.mapped, [16687]) (.node (.node .leaf 194905 194905 (.mapped, [31296]) .leaf) 194906 194906 (.mapped, [31306]) (.node .leaf 194907 194907 (.mapped, [31311]) .leaf))) 194908 194908 (.mapped, [153980]) (.node (.node (.node .leaf 194909 194910 (.mapped, [154279]) .leaf) 194911 194911 (.disallowed, []) (.node .leaf 194912 194912 (.mapped, [16898]) .leaf)) 194913 194913 (.mapped, [154539]) (.node (.node .leaf 194914 194914 (.mapped, [31686]) .leaf) 194915 194915 (.mapped, [31689]) (.node .leaf 194916 194916 (.mapped, [16935]) .leaf)))) 194917 194917 (.mapped, [154752]) (.node (.node (.node (.node (.node .leaf 194918 194918 (.mapped, [31954]) .leaf) 194919 194919 (.mapped, [17056]) .leaf) 194920 194920 (.mapped, [31976]) (.node .leaf 194921 194921 (.mapped, [31971]) .leaf)) 194922 194922 (.mapped, [32000]) (.node (.node .leaf 194923 194923 (.mapped, [155526]) .leaf) 194924 194924 (.mapped, [32099]) (.node .leaf 194925 194925 (.mapped, [17153]) .leaf))) 194926 194926 (.mapped, [32199]) (.node (.node (.node .leaf 194927 194927 (.mapped, [32258]) .leaf) 194928 194928 (.mapped, [32325]) (.node .leaf 194929 194929 (.mapped, [17204]) .leaf)) 194930 194930 (.mapped, [156200]) (.node (.node .leaf 194931 194931 (.mapped, [156231]) .leaf) 194932 194932 (.mapped, [17241]) (.node .leaf 194933 194933 (.mapped, [156377]) .leaf)))))) 194934 194934 (.mapped, [32634]) (.node (.node (.node (.node (.node (.node (.node .leaf 194935 194935 (.mapped, [156478]) .leaf) 194936 194936 (.mapped, [32661]) .leaf) 194937 194937 (.mapped, [32762]) (.node .leaf 194938 194938 (.mapped, [32773]) .leaf)) 194939 194939 (.mapped, [156890]) (.node (.node .leaf 194940 194940 (.mapped, [156963]) .leaf) 194941 194941 (.mapped, [32864]) (.node .leaf 194942 194942 (.mapped, [157096]) .leaf))) 194943 194943 (.mapped, [32880]) (.node (.node (.node .leaf 194944 194944 (.mapped, [144223]) .leaf) 194945 194945 (.mapped, [17365]) (.node .leaf 194946 194946 (.mapped, [32946]) .leaf)) 194947 194947 (.mapped, [33027]) (.node (.node .leaf 194948 194948 (.mapped, [17419]) .leaf) 194949 194949 (.mapped, [33086]) (.node .leaf 194950 194950 (.mapped, [23221]) .leaf)))) 194951 194951 (.mapped, [157607]) (.node (.node (.node (.node (.node .leaf 194952 194952 (.mapped, [157621]) .leaf) 194953 194953 (.mapped, [144275]) .leaf) 194954 194954 (.mapped, [144284]) (.node .leaf 194955 194955 (.mapped, [33281]) .leaf)) 194956 194956 (.mapped, [33284]) (.node (.node .leaf 194957 194957 (.mapped, [36766]) .leaf) 194958 194958 (.mapped, [17515]) (.node .leaf 194959 194959 (.mapped, [33425]) .leaf))) 194960 194960 (.mapped, [33419]) (.node (.node (.node .leaf 194961 194961 (.mapped, [33437]) .leaf) 194962 194962 (.mapped, [21171]) (.node .leaf 194963 194963 (.mapped, [33457]) .leaf)) 194964 194964 (.mapped, [33459]) (.node (.node .leaf 194965 194965 (.mapped, [33469]) .leaf) 194966 194966 (.mapped, [33510]) (.node .leaf 194967 194967 (.mapped, [158524]) .leaf))))) 194968 194968 (.mapped, [33509]) (.node (.node (.node (.node (.node (.node .leaf 194969 194969 (.mapped, [33565]) .leaf) 194970 194970 (.mapped, [33635]) .leaf) 194971 194971 (.mapped, [33709]) (.node .leaf 194972 194972 (.mapped, [33571]) .leaf)) 194973 194973 (.mapped, [33725]) (.node (.node .leaf 194974 194974 (.mapped, [33767]) .leaf) 194975 194975 (.mapped, [33879]) (.node .leaf 194976 194976 (.mapped, [33619]) .leaf))) 194977 194977 (.mapped, [33738]) (.node (.node (.node .leaf 194978 194978 (.mapped, [33740]) .leaf) 194979 194979 (.mapped, [33756]) (.node .leaf 194980 194980 (.mapped, [158774]) .leaf)) 194981 194981 (.mapped, [159083]) (.node (.node .leaf 194982 194982 (.mapped, [158933]) .leaf) 194983 194983 (.mapped, [17707]) (.node .leaf 194984 194984 (.mapped, [34033]) .leaf)))) 194985 194985 (.mapped, [34035]) (.node (.node (.node (.node (.node .leaf 194986 194986 (.mapped, [34070]) .leaf) 194987 194987 (.mapped, [160714]) .leaf) 194988 194988 (.mapped, [34148]) (.node .leaf 194989 194989 (.mapped, [159532]) .leaf)) 194990 194990 (.mapped, [17757]) (.node (.node .leaf 194991 194991 (.mapped, [17761]) .leaf) 194992 194992 (.mapped, [159665]) (.node .leaf 194993 194993 (.mapped, [159954]) .leaf))) 194994 194994 (.mapped, [17771]) (.node (.node (.node .leaf 194995 194995 (.mapped, [34384]) .leaf) 194996 194996 (.mapped, [34396]) (.node .leaf 194997 194997 (.mapped, [34407]) .leaf)) 194998 194998 (.mapped, [34409]) (.node (.node .leaf 194999 194999 (.mapped, [34473]) .leaf) 195000 195000 (.mapped, [34440]) (.node .leaf 195001 195001 (.mapped, [34574]) .leaf))))))) 195002 195002 (.mapped, [34530]) (.node (.node (.node (.node (.node (.node (.node (.node .leaf 195003 195003 (.mapped, [34681]) .leaf) 195004 195004 (.mapped, [34600]) .leaf) 195005 195005 (.mapped, [34667]) (.node .leaf 195006 195006 (.mapped, [34694]) .leaf)) 195007 195007 (.disallowed, []) (.node (.node .leaf 195008 195008 (.mapped, [34785]) .leaf) 195009 195009 (.mapped, [34817]) (.node .leaf 195010 195010 (.mapped, [17913]) .leaf))) 195011 195011 (.mapped, [34912]) (.node (.node (.node .leaf 195012 195012 (.mapped, [34915]) .leaf) 195013 195013 (.mapped, [161383]) (.node .leaf 195014 195014 (.mapped, [35031]) .leaf)) 195015 195015 (.mapped, [35038]) (.node (.node .leaf 195016 195016 (.mapped, [17973]) .leaf) 195017 195017 (.mapped, [35066]) (.node .leaf 195018 195018 (.mapped, [13499]) .leaf)))) 195019 195019 (.mapped, [161966]) (.node (.node (.node (.node (.node .leaf 195020 195020 (.mapped, [162150]) .leaf) 195021 195021 (.mapped, [18110]) .leaf) 195022 195022 (.mapped, [18119]) (.node .leaf 195023 195023 (.mapped, [35488]) .leaf)) 195024 195024 (.mapped, [35565]) (.node (.node .leaf 195025 195025 (.mapped, [35722]) .leaf) 195026 195026 (.mapped, [35925]) (.node .leaf 195027 195027 (.mapped, [162984]) .leaf))) 195028 195028 (.mapped, [36011]) (.node (.node (.node .leaf 195029 195029 (.mapped, [36033]) .leaf) 195030 195030 (.mapped, [36123]) (.node .leaf 195031 195031 (.mapped, [36215]) .leaf)) 195032 195032 (.mapped, [163631]) (.node (.node .leaf 195033 195033 (.mapped, [133124]) .leaf) 195034 195034 (.mapped, [36299]) (.node .leaf 195035 195035 (.mapped, [36284]) .leaf))))) 195036 195036 (.mapped, [36336]) (.node (.node (.node (.node (.node (.node .leaf 195037 195037 (.mapped, [133342]) .leaf) 195038 195038 (.mapped, [36564]) .leaf) 195039 195039 (.mapped, [36664]) (.node .leaf 195040 195040 (.mapped, [165330]) .leaf)) 195041 195041 (.mapped, [165357]) (.node (.node .leaf 195042 195042 (.mapped, [37012]) .leaf) 195043 195043 (.mapped, [37105]) (.node .leaf 195044 195044 (.mapped, [37137]) .leaf))) 195045 195045 (.mapped, [165678]) (.node (.node (.node .leaf 195046 195046 (.mapped, [37147]) .leaf) 195047 195047 (.mapped, [37432]) (.node .leaf 195048 195048 (.mapped, [37591]) .leaf)) 195049 195049 (.mapped, [37592]) (.node (.node .leaf 195050 195050 (.mapped, [37500]) .leaf) 195051 195051 (.mapped, [37881]) (.node .leaf 195052 195052 (.mapped, [37909]) .leaf)))) 195053 195053 (.mapped, [166906]) (.node (.node (.node (.node (.node .leaf 195054 195054 (.mapped, [38283]) .leaf) 195055 195055 (.mapped, [18837]) .leaf) 195056 195056 (.mapped, [38327]) (.node .leaf 195057 195057 (.mapped, [167287]) .leaf)) 195058 195058 (.mapped, [18918]) (.node (.node .leaf 195059 195059 (.mapped, [38595]) .leaf) 195060 195060 (.mapped, [23986]) (.node .leaf 195061 195061 (.mapped, [38691]) .leaf))) 195062 195062 (.mapped, [168261]) (.node (.node (.node .leaf 195063 195063 (.mapped, [168474]) .leaf) 195064 195064 (.mapped, [19054]) (.node .leaf 195065 195065 (.mapped, [19062]) .leaf)) 195066 195066 (.mapped, [38880]) (.node (.node .leaf 195067 195067 (.mapped, [168970]) .leaf) 195068 195068 (.mapped, [19122]) (.node .leaf 195069 195069 (.mapped, [169110]) .leaf)))))) 195070 195071 (.mapped, [38923]) (.node (.node (.node (.node (.node (.node (.node .leaf 195072 195072 (.mapped, [38953]) .leaf) 195073 195073 (.mapped, [169398]) .leaf) 195074 195074 (.mapped, [39138]) (.node .leaf 195075 195075 (.mapped, [19251]) .leaf)) 195076 195076 (.mapped, [39209]) (.node (.node .leaf 195077 195077 (.mapped, [39335]) .leaf) 195078 195078 (.mapped, [39362]) (.node .leaf 195079 195079 (.mapped, [39422]) .leaf))) 195080 195080 (.mapped, [19406]) (.node (.node (.node .leaf 195081 195081 (.mapped, [170800]) .leaf) 195082 195082 (.mapped, [39698]) (.node .leaf 195083 195083 (.mapped, [40000]) .leaf)) 195084 195084 (.mapped, [40189]) (.node (.node .leaf 195085 195085 (.mapped, [19662]) .leaf) 195086 195086 (.mapped, [19693]) (.node .leaf 195087 195087 (.mapped, [40295]) .leaf)))) 195088 195088 (.mapped, [172238]) (.node (.node (.node (.node (.node .leaf 195089 195089 (.mapped, [19704]) .leaf) 195090 195090 (.mapped, [172293]) .leaf) 195091 195091 (.mapped, [172558]) (.node .leaf 195092 195092 (.mapped, [172689]) .leaf)) 195093 195093 (.mapped, [40635]) (.node (.node .leaf 195094 195094 (.mapped, [19798]) .leaf) 195095 195095 (.mapped, [40697]) (.node .leaf 195096 195096 (.mapped, [40702]) .leaf))) 195097 195097 (.mapped, [40709]) (.node (.node (.node .leaf 195098 195098 (.mapped, [40719]) .leaf) 195099 195099 (.mapped, [40726]) (.node .leaf 195100 195100 (.mapped, [40763]) .leaf)) 195101 195101 (.mapped, [173568]) (.node (.node .leaf 195102 196605 (.disallowed, []) .leaf) 196606 196607 (.disallowed, []) (.node .leaf 196608 201546 (.valid, []) .leaf))))) 201547 262141 (.disallowed, []) (.node (.node (.node (.node (.node (.node .leaf 262142 262143 (.disallowed, []) .leaf) 262144 327677 (.disallowed, []) .leaf) 327678 327679 (.disallowed, []) (.node .leaf 327680 393213 (.disallowed, []) .leaf)) 393214 393215 (.disallowed, []) (.node (.node .leaf 393216 458749 (.disallowed, []) .leaf) 458750 458751 (.disallowed, []) (.node .leaf 458752 524285 (.disallowed, []) .leaf))) 524286 524287 (.disallowed, []) (.node (.node (.node .leaf 524288 589821 (.disallowed, []) .leaf) 589822 589823 (.disallowed, []) (.node .leaf 589824 655357 (.disallowed, []) .leaf)) 655358 655359 (.disallowed, []) (.node (.node .leaf 655360 720893 (.disallowed, []) .leaf) 720894 720895 (.disallowed, []) (.node .leaf 720896 786429 (.disallowed, []) .leaf)))) 786430 786431 (.disallowed, []) (.node (.node (.node (.node (.node .leaf 786432 851965 (.disallowed, []) .leaf) 851966 851967 (.disallowed, []) .leaf) 851968 917501 (.disallowed, []) (.node .leaf 917502 917503 (.disallowed, []) .leaf)) 917504 917504 (.disallowed, []) (.node (.node .leaf 917505 917505 (.disallowed, []) .leaf) 917506 917535 (.disallowed, []) (.node .leaf 917536 917631 (.disallowed, []) .leaf))) 917632 917759 (.disallowed, []) (.node (.node (.node .leaf 917760 917999 (.ignored, []) .leaf) 918000 983037 (.disallowed, []) (.node .leaf 983038 983039 (.disallowed, []) .leaf)) 983040 1048573 (.disallowed, []) (.node (.node .leaf 1048574 1048575 (.disallowed, []) .leaf) 1048576 1114109 (.disallowed, []) (.node .leaf 1114110 1114111 (.disallowed, []) .leaf))))))))

/-- IdnaMappingTable.txt: first and last code point, status and mapping of each line (none and an empty one are the same here). -/
def idnaTable : RTree (Status × List Nat) := (.node (.node (.node (.node (.node idnaTable0 441 443 (.valid, []) idnaTable1) 1012 1012 (.mapped, [952]) (.node idnaTable2 1332 1332 (.mapped, [1380]) idnaTable3)) 2692 2692 (.disallowed, []) (.node (.node idnaTable4 3781 3781 (.disallowed, []) idnaTable5) 6624 6655 (.valid, []) (.node idnaTable6 7730 7730 (.mapped, [7731]) idnaTable7))) 8056 8056 (.valid, []) (.node (.node (.node idnaTable8 8500 8500 (.mapped, [111]) idnaTable9) 9990 9993 (.valid, []) (.node idnaTable10 11704 11710 (.valid, []) idnaTable11)) 12441 12442 (.valid, []) (.node (.node idnaTable12 12949 12949 (.mapped, [29305]) idnaTable13) 13221 13221 (.mapped, [109, 51]) (.node idnaTable14 42846 42846 (.mapped, [42847]) idnaTable15)))) 55216 55238 (.valid, []) (.node (.node (.node (.node idnaTable16 64012 64012 (.mapped, [20800]) idnaTable17) 64366 64369 (.mapped, [1702]) (.node idnaTable18 64742 64742 (.mapped, [1579, 1607]) idnaTable19)) 65127 65127 (.disallowed, []) (.node (.node idnaTable20 65493 65493 (.mapped, [4464]) idnaTable21) 68738 68738 (.mapped, [68802]) (.node idnaTable22 72016 72025 (.valid, []) idnaTable23))) 119845 119845 (.mapped, [108]) (.node (.node (.node idnaTable24 120122 120122 (.disallowed, []) idnaTable25) 120396 120396 (.mapped, [113]) (.node idnaTable26 120672 120672 (.mapped, [955]) idnaTable27)) 126493 126493 (.mapped, [1722]) (.node (.node idnaTable28 127511 127511 (.mapped, [22825]) idnaTable29) 194585 194585 (.mapped, [20172]) (.node idnaTable30 194864 194864 (.mapped, [29809]) idnaTable31)))))

end Verif.Unidata
