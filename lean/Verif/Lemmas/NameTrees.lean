/-!
# Search trees with the entries of the case folding and decomposition tables

Written by a script, used to evaluate table lookups quickly; that they have the same entries as the tables is proved in `Verif.Lemmas.NameUnicode`.
-/
namespace Verif
namespace Name

/-- search tree -/
inductive Tree (β : Type) where
  | leaf
  | node (l : Tree β) (k : Nat) (v : β) (r : Tree β)

def foldTree_aaaa : Tree Nat :=
  .node (.node (.node (.node (.node (.node (.node .leaf 0x41 0x61 .leaf) 0x42 0x62 .leaf) 0x43 0x63 (.node (.node .leaf 0x44 0x64 .leaf) 0x45 0x65
  .leaf)) 0x46 0x66 (.node (.node (.node .leaf 0x47 0x67 .leaf) 0x48 0x68 .leaf) 0x49 0x69 (.node (.node .leaf 0x4a 0x6a .leaf) 0x4b 0x6b .leaf)))
  0x4c 0x6c (.node (.node (.node (.node .leaf 0x4d 0x6d .leaf) 0x4e 0x6e .leaf) 0x4f 0x6f (.node (.node .leaf 0x50 0x70 .leaf) 0x51 0x71 .leaf)) 0x52
  0x72 (.node (.node (.node .leaf 0x53 0x73 .leaf) 0x54 0x74 .leaf) 0x55 0x75 (.node .leaf 0x56 0x76 .leaf)))) 0x57 0x77 (.node (.node (.node (.node
  (.node .leaf 0x58 0x78 .leaf) 0x59 0x79 .leaf) 0x5a 0x7a (.node (.node .leaf 0xb5 0x3bc .leaf) 0xc0 0xe0 .leaf)) 0xc1 0xe1 (.node (.node (.node
  .leaf 0xc2 0xe2 .leaf) 0xc3 0xe3 .leaf) 0xc4 0xe4 (.node .leaf 0xc5 0xe5 .leaf))) 0xc6 0xe6 (.node (.node (.node (.node .leaf 0xc7 0xe7 .leaf) 0xc8
  0xe8 .leaf) 0xc9 0xe9 (.node (.node .leaf 0xca 0xea .leaf) 0xcb 0xeb .leaf)) 0xcc 0xec (.node (.node (.node .leaf 0xcd 0xed .leaf) 0xce 0xee .leaf)
  0xcf 0xef (.node .leaf 0xd0 0xf0 .leaf))))) 0xd1 0xf1 (.node (.node (.node (.node (.node (.node .leaf 0xd2 0xf2 .leaf) 0xd3 0xf3 .leaf) 0xd4 0xf4
  (.node (.node .leaf 0xd5 0xf5 .leaf) 0xd6 0xf6 .leaf)) 0xd8 0xf8 (.node (.node (.node .leaf 0xd9 0xf9 .leaf) 0xda 0xfa .leaf) 0xdb 0xfb (.node .leaf
  0xdc 0xfc .leaf))) 0xdd 0xfd (.node (.node (.node (.node .leaf 0xde 0xfe .leaf) 0x100 0x101 .leaf) 0x102 0x103 (.node (.node .leaf 0x104 0x105
  .leaf) 0x106 0x107 .leaf)) 0x108 0x109 (.node (.node (.node .leaf 0x10a 0x10b .leaf) 0x10c 0x10d .leaf) 0x10e 0x10f (.node .leaf 0x110 0x111
  .leaf)))) 0x112 0x113 (.node (.node (.node (.node (.node .leaf 0x114 0x115 .leaf) 0x116 0x117 .leaf) 0x118 0x119 (.node (.node .leaf 0x11a 0x11b
  .leaf) 0x11c 0x11d .leaf)) 0x11e 0x11f (.node (.node (.node .leaf 0x120 0x121 .leaf) 0x122 0x123 .leaf) 0x124 0x125 (.node .leaf 0x126 0x127
  .leaf))) 0x128 0x129 (.node (.node (.node (.node .leaf 0x12a 0x12b .leaf) 0x12c 0x12d .leaf) 0x12e 0x12f (.node (.node .leaf 0x132 0x133 .leaf)
  0x134 0x135 .leaf)) 0x136 0x137 (.node (.node (.node .leaf 0x139 0x13a .leaf) 0x13b 0x13c .leaf) 0x13d 0x13e (.node .leaf 0x13f 0x140 .leaf)))))

def foldTree_aaab : Tree Nat :=
  .node (.node (.node (.node (.node (.node (.node .leaf 0x143 0x144 .leaf) 0x145 0x146 .leaf) 0x147 0x148 (.node (.node .leaf 0x14a 0x14b .leaf) 0x14c
  0x14d .leaf)) 0x14e 0x14f (.node (.node (.node .leaf 0x150 0x151 .leaf) 0x152 0x153 .leaf) 0x154 0x155 (.node (.node .leaf 0x156 0x157 .leaf) 0x158
  0x159 .leaf))) 0x15a 0x15b (.node (.node (.node (.node .leaf 0x15c 0x15d .leaf) 0x15e 0x15f .leaf) 0x160 0x161 (.node (.node .leaf 0x162 0x163
  .leaf) 0x164 0x165 .leaf)) 0x166 0x167 (.node (.node (.node .leaf 0x168 0x169 .leaf) 0x16a 0x16b .leaf) 0x16c 0x16d (.node .leaf 0x16e 0x16f
  .leaf)))) 0x170 0x171 (.node (.node (.node (.node (.node .leaf 0x172 0x173 .leaf) 0x174 0x175 .leaf) 0x176 0x177 (.node (.node .leaf 0x178 0xff
  .leaf) 0x179 0x17a .leaf)) 0x17b 0x17c (.node (.node (.node .leaf 0x17d 0x17e .leaf) 0x17f 0x73 .leaf) 0x181 0x253 (.node .leaf 0x182 0x183 .leaf)))
  0x184 0x185 (.node (.node (.node (.node .leaf 0x186 0x254 .leaf) 0x187 0x188 .leaf) 0x189 0x256 (.node (.node .leaf 0x18a 0x257 .leaf) 0x18b 0x18c
  .leaf)) 0x18e 0x1dd (.node (.node (.node .leaf 0x18f 0x259 .leaf) 0x190 0x25b .leaf) 0x191 0x192 (.node .leaf 0x193 0x260 .leaf))))) 0x194 0x263
  (.node (.node (.node (.node (.node (.node .leaf 0x196 0x269 .leaf) 0x197 0x268 .leaf) 0x198 0x199 (.node (.node .leaf 0x19c 0x26f .leaf) 0x19d 0x272
  .leaf)) 0x19f 0x275 (.node (.node (.node .leaf 0x1a0 0x1a1 .leaf) 0x1a2 0x1a3 .leaf) 0x1a4 0x1a5 (.node .leaf 0x1a6 0x280 .leaf))) 0x1a7 0x1a8
  (.node (.node (.node (.node .leaf 0x1a9 0x283 .leaf) 0x1ac 0x1ad .leaf) 0x1ae 0x288 (.node (.node .leaf 0x1af 0x1b0 .leaf) 0x1b1 0x28a .leaf)) 0x1b2
  0x28b (.node (.node (.node .leaf 0x1b3 0x1b4 .leaf) 0x1b5 0x1b6 .leaf) 0x1b7 0x292 (.node .leaf 0x1b8 0x1b9 .leaf)))) 0x1bc 0x1bd (.node (.node
  (.node (.node (.node .leaf 0x1c4 0x1c6 .leaf) 0x1c5 0x1c6 .leaf) 0x1c7 0x1c9 (.node (.node .leaf 0x1c8 0x1c9 .leaf) 0x1ca 0x1cc .leaf)) 0x1cb 0x1cc
  (.node (.node (.node .leaf 0x1cd 0x1ce .leaf) 0x1cf 0x1d0 .leaf) 0x1d1 0x1d2 (.node .leaf 0x1d3 0x1d4 .leaf))) 0x1d5 0x1d6 (.node (.node (.node
  (.node .leaf 0x1d7 0x1d8 .leaf) 0x1d9 0x1da .leaf) 0x1db 0x1dc (.node (.node .leaf 0x1de 0x1df .leaf) 0x1e0 0x1e1 .leaf)) 0x1e2 0x1e3 (.node (.node
  (.node .leaf 0x1e4 0x1e5 .leaf) 0x1e6 0x1e7 .leaf) 0x1e8 0x1e9 (.node .leaf 0x1ea 0x1eb .leaf)))))

def foldTree_aaa : Tree Nat := .node foldTree_aaaa 0x141 0x142 foldTree_aaab

def foldTree_aaba : Tree Nat :=
  .node (.node (.node (.node (.node (.node (.node .leaf 0x1ee 0x1ef .leaf) 0x1f1 0x1f3 .leaf) 0x1f2 0x1f3 (.node (.node .leaf 0x1f4 0x1f5 .leaf) 0x1f6
  0x195 .leaf)) 0x1f7 0x1bf (.node (.node (.node .leaf 0x1f8 0x1f9 .leaf) 0x1fa 0x1fb .leaf) 0x1fc 0x1fd (.node (.node .leaf 0x1fe 0x1ff .leaf) 0x200
  0x201 .leaf))) 0x202 0x203 (.node (.node (.node (.node .leaf 0x204 0x205 .leaf) 0x206 0x207 .leaf) 0x208 0x209 (.node (.node .leaf 0x20a 0x20b
  .leaf) 0x20c 0x20d .leaf)) 0x20e 0x20f (.node (.node (.node .leaf 0x210 0x211 .leaf) 0x212 0x213 .leaf) 0x214 0x215 (.node .leaf 0x216 0x217
  .leaf)))) 0x218 0x219 (.node (.node (.node (.node (.node .leaf 0x21a 0x21b .leaf) 0x21c 0x21d .leaf) 0x21e 0x21f (.node (.node .leaf 0x220 0x19e
  .leaf) 0x222 0x223 .leaf)) 0x224 0x225 (.node (.node (.node .leaf 0x226 0x227 .leaf) 0x228 0x229 .leaf) 0x22a 0x22b (.node .leaf 0x22c 0x22d
  .leaf))) 0x22e 0x22f (.node (.node (.node (.node .leaf 0x230 0x231 .leaf) 0x232 0x233 .leaf) 0x23a 0x2c65 (.node (.node .leaf 0x23b 0x23c .leaf)
  0x23d 0x19a .leaf)) 0x23e 0x2c66 (.node (.node (.node .leaf 0x241 0x242 .leaf) 0x243 0x180 .leaf) 0x244 0x289 (.node .leaf 0x245 0x28c .leaf)))))
  0x246 0x247 (.node (.node (.node (.node (.node (.node .leaf 0x248 0x249 .leaf) 0x24a 0x24b .leaf) 0x24c 0x24d (.node (.node .leaf 0x24e 0x24f .leaf)
  0x345 0x3b9 .leaf)) 0x370 0x371 (.node (.node (.node .leaf 0x372 0x373 .leaf) 0x376 0x377 .leaf) 0x37f 0x3f3 (.node .leaf 0x386 0x3ac .leaf))) 0x388
  0x3ad (.node (.node (.node (.node .leaf 0x389 0x3ae .leaf) 0x38a 0x3af .leaf) 0x38c 0x3cc (.node (.node .leaf 0x38e 0x3cd .leaf) 0x38f 0x3ce .leaf))
  0x391 0x3b1 (.node (.node (.node .leaf 0x392 0x3b2 .leaf) 0x393 0x3b3 .leaf) 0x394 0x3b4 (.node .leaf 0x395 0x3b5 .leaf)))) 0x396 0x3b6 (.node
  (.node (.node (.node (.node .leaf 0x397 0x3b7 .leaf) 0x398 0x3b8 .leaf) 0x399 0x3b9 (.node (.node .leaf 0x39a 0x3ba .leaf) 0x39b 0x3bb .leaf)) 0x39c
  0x3bc (.node (.node (.node .leaf 0x39d 0x3bd .leaf) 0x39e 0x3be .leaf) 0x39f 0x3bf (.node .leaf 0x3a0 0x3c0 .leaf))) 0x3a1 0x3c1 (.node (.node
  (.node (.node .leaf 0x3a3 0x3c3 .leaf) 0x3a4 0x3c4 .leaf) 0x3a5 0x3c5 (.node (.node .leaf 0x3a6 0x3c6 .leaf) 0x3a7 0x3c7 .leaf)) 0x3a8 0x3c8 (.node
  (.node (.node .leaf 0x3a9 0x3c9 .leaf) 0x3aa 0x3ca .leaf) 0x3ab 0x3cb (.node .leaf 0x3c2 0x3c3 .leaf)))))

def foldTree_aabb : Tree Nat :=
  .node (.node (.node (.node (.node (.node (.node .leaf 0x3d0 0x3b2 .leaf) 0x3d1 0x3b8 .leaf) 0x3d5 0x3c6 (.node (.node .leaf 0x3d6 0x3c0 .leaf) 0x3d8
  0x3d9 .leaf)) 0x3da 0x3db (.node (.node (.node .leaf 0x3dc 0x3dd .leaf) 0x3de 0x3df .leaf) 0x3e0 0x3e1 (.node .leaf 0x3e2 0x3e3 .leaf))) 0x3e4 0x3e5
  (.node (.node (.node (.node .leaf 0x3e6 0x3e7 .leaf) 0x3e8 0x3e9 .leaf) 0x3ea 0x3eb (.node (.node .leaf 0x3ec 0x3ed .leaf) 0x3ee 0x3ef .leaf)) 0x3f0
  0x3ba (.node (.node (.node .leaf 0x3f1 0x3c1 .leaf) 0x3f4 0x3b8 .leaf) 0x3f5 0x3b5 (.node .leaf 0x3f7 0x3f8 .leaf)))) 0x3f9 0x3f2 (.node (.node
  (.node (.node (.node .leaf 0x3fa 0x3fb .leaf) 0x3fd 0x37b .leaf) 0x3fe 0x37c (.node (.node .leaf 0x3ff 0x37d .leaf) 0x400 0x450 .leaf)) 0x401 0x451
  (.node (.node (.node .leaf 0x402 0x452 .leaf) 0x403 0x453 .leaf) 0x404 0x454 (.node .leaf 0x405 0x455 .leaf))) 0x406 0x456 (.node (.node (.node
  (.node .leaf 0x407 0x457 .leaf) 0x408 0x458 .leaf) 0x409 0x459 (.node (.node .leaf 0x40a 0x45a .leaf) 0x40b 0x45b .leaf)) 0x40c 0x45c (.node (.node
  (.node .leaf 0x40d 0x45d .leaf) 0x40e 0x45e .leaf) 0x40f 0x45f (.node .leaf 0x410 0x430 .leaf))))) 0x411 0x431 (.node (.node (.node (.node (.node
  (.node .leaf 0x412 0x432 .leaf) 0x413 0x433 .leaf) 0x414 0x434 (.node (.node .leaf 0x415 0x435 .leaf) 0x416 0x436 .leaf)) 0x417 0x437 (.node (.node
  (.node .leaf 0x418 0x438 .leaf) 0x419 0x439 .leaf) 0x41a 0x43a (.node .leaf 0x41b 0x43b .leaf))) 0x41c 0x43c (.node (.node (.node (.node .leaf 0x41d
  0x43d .leaf) 0x41e 0x43e .leaf) 0x41f 0x43f (.node (.node .leaf 0x420 0x440 .leaf) 0x421 0x441 .leaf)) 0x422 0x442 (.node (.node (.node .leaf 0x423
  0x443 .leaf) 0x424 0x444 .leaf) 0x425 0x445 (.node .leaf 0x426 0x446 .leaf)))) 0x427 0x447 (.node (.node (.node (.node (.node .leaf 0x428 0x448
  .leaf) 0x429 0x449 .leaf) 0x42a 0x44a (.node (.node .leaf 0x42b 0x44b .leaf) 0x42c 0x44c .leaf)) 0x42d 0x44d (.node (.node (.node .leaf 0x42e 0x44e
  .leaf) 0x42f 0x44f .leaf) 0x460 0x461 (.node .leaf 0x462 0x463 .leaf))) 0x464 0x465 (.node (.node (.node (.node .leaf 0x466 0x467 .leaf) 0x468 0x469
  .leaf) 0x46a 0x46b (.node (.node .leaf 0x46c 0x46d .leaf) 0x46e 0x46f .leaf)) 0x470 0x471 (.node (.node (.node .leaf 0x472 0x473 .leaf) 0x474 0x475
  .leaf) 0x476 0x477 (.node .leaf 0x478 0x479 .leaf)))))

def foldTree_aab : Tree Nat := .node foldTree_aaba 0x3cf 0x3d7 foldTree_aabb

def foldTree_aa : Tree Nat := .node foldTree_aaa 0x1ec 0x1ed foldTree_aab

def foldTree_abaa : Tree Nat :=
  .node (.node (.node (.node (.node (.node (.node .leaf 0x47c 0x47d .leaf) 0x47e 0x47f .leaf) 0x480 0x481 (.node (.node .leaf 0x48a 0x48b .leaf) 0x48c
  0x48d .leaf)) 0x48e 0x48f (.node (.node (.node .leaf 0x490 0x491 .leaf) 0x492 0x493 .leaf) 0x494 0x495 (.node (.node .leaf 0x496 0x497 .leaf) 0x498
  0x499 .leaf))) 0x49a 0x49b (.node (.node (.node (.node .leaf 0x49c 0x49d .leaf) 0x49e 0x49f .leaf) 0x4a0 0x4a1 (.node (.node .leaf 0x4a2 0x4a3
  .leaf) 0x4a4 0x4a5 .leaf)) 0x4a6 0x4a7 (.node (.node (.node .leaf 0x4a8 0x4a9 .leaf) 0x4aa 0x4ab .leaf) 0x4ac 0x4ad (.node .leaf 0x4ae 0x4af
  .leaf)))) 0x4b0 0x4b1 (.node (.node (.node (.node (.node .leaf 0x4b2 0x4b3 .leaf) 0x4b4 0x4b5 .leaf) 0x4b6 0x4b7 (.node (.node .leaf 0x4b8 0x4b9
  .leaf) 0x4ba 0x4bb .leaf)) 0x4bc 0x4bd (.node (.node (.node .leaf 0x4be 0x4bf .leaf) 0x4c0 0x4cf .leaf) 0x4c1 0x4c2 (.node .leaf 0x4c3 0x4c4
  .leaf))) 0x4c5 0x4c6 (.node (.node (.node (.node .leaf 0x4c7 0x4c8 .leaf) 0x4c9 0x4ca .leaf) 0x4cb 0x4cc (.node (.node .leaf 0x4cd 0x4ce .leaf)
  0x4d0 0x4d1 .leaf)) 0x4d2 0x4d3 (.node (.node (.node .leaf 0x4d4 0x4d5 .leaf) 0x4d6 0x4d7 .leaf) 0x4d8 0x4d9 (.node .leaf 0x4da 0x4db .leaf)))))
  0x4dc 0x4dd (.node (.node (.node (.node (.node (.node .leaf 0x4de 0x4df .leaf) 0x4e0 0x4e1 .leaf) 0x4e2 0x4e3 (.node (.node .leaf 0x4e4 0x4e5 .leaf)
  0x4e6 0x4e7 .leaf)) 0x4e8 0x4e9 (.node (.node (.node .leaf 0x4ea 0x4eb .leaf) 0x4ec 0x4ed .leaf) 0x4ee 0x4ef (.node .leaf 0x4f0 0x4f1 .leaf))) 0x4f2
  0x4f3 (.node (.node (.node (.node .leaf 0x4f4 0x4f5 .leaf) 0x4f6 0x4f7 .leaf) 0x4f8 0x4f9 (.node (.node .leaf 0x4fa 0x4fb .leaf) 0x4fc 0x4fd .leaf))
  0x4fe 0x4ff (.node (.node (.node .leaf 0x500 0x501 .leaf) 0x502 0x503 .leaf) 0x504 0x505 (.node .leaf 0x506 0x507 .leaf)))) 0x508 0x509 (.node
  (.node (.node (.node (.node .leaf 0x50a 0x50b .leaf) 0x50c 0x50d .leaf) 0x50e 0x50f (.node (.node .leaf 0x510 0x511 .leaf) 0x512 0x513 .leaf)) 0x514
  0x515 (.node (.node (.node .leaf 0x516 0x517 .leaf) 0x518 0x519 .leaf) 0x51a 0x51b (.node .leaf 0x51c 0x51d .leaf))) 0x51e 0x51f (.node (.node
  (.node (.node .leaf 0x520 0x521 .leaf) 0x522 0x523 .leaf) 0x524 0x525 (.node (.node .leaf 0x526 0x527 .leaf) 0x528 0x529 .leaf)) 0x52a 0x52b (.node
  (.node (.node .leaf 0x52c 0x52d .leaf) 0x52e 0x52f .leaf) 0x531 0x561 (.node .leaf 0x532 0x562 .leaf)))))

def foldTree_abab : Tree Nat :=
  .node (.node (.node (.node (.node (.node (.node .leaf 0x534 0x564 .leaf) 0x535 0x565 .leaf) 0x536 0x566 (.node (.node .leaf 0x537 0x567 .leaf) 0x538
  0x568 .leaf)) 0x539 0x569 (.node (.node (.node .leaf 0x53a 0x56a .leaf) 0x53b 0x56b .leaf) 0x53c 0x56c (.node .leaf 0x53d 0x56d .leaf))) 0x53e 0x56e
  (.node (.node (.node (.node .leaf 0x53f 0x56f .leaf) 0x540 0x570 .leaf) 0x541 0x571 (.node (.node .leaf 0x542 0x572 .leaf) 0x543 0x573 .leaf)) 0x544
  0x574 (.node (.node (.node .leaf 0x545 0x575 .leaf) 0x546 0x576 .leaf) 0x547 0x577 (.node .leaf 0x548 0x578 .leaf)))) 0x549 0x579 (.node (.node
  (.node (.node (.node .leaf 0x54a 0x57a .leaf) 0x54b 0x57b .leaf) 0x54c 0x57c (.node (.node .leaf 0x54d 0x57d .leaf) 0x54e 0x57e .leaf)) 0x54f 0x57f
  (.node (.node (.node .leaf 0x550 0x580 .leaf) 0x551 0x581 .leaf) 0x552 0x582 (.node .leaf 0x553 0x583 .leaf))) 0x554 0x584 (.node (.node (.node
  (.node .leaf 0x555 0x585 .leaf) 0x556 0x586 .leaf) 0x10a0 0x2d00 (.node (.node .leaf 0x10a1 0x2d01 .leaf) 0x10a2 0x2d02 .leaf)) 0x10a3 0x2d03 (.node
  (.node (.node .leaf 0x10a4 0x2d04 .leaf) 0x10a5 0x2d05 .leaf) 0x10a6 0x2d06 (.node .leaf 0x10a7 0x2d07 .leaf))))) 0x10a8 0x2d08 (.node (.node (.node
  (.node (.node (.node .leaf 0x10a9 0x2d09 .leaf) 0x10aa 0x2d0a .leaf) 0x10ab 0x2d0b (.node (.node .leaf 0x10ac 0x2d0c .leaf) 0x10ad 0x2d0d .leaf))
  0x10ae 0x2d0e (.node (.node (.node .leaf 0x10af 0x2d0f .leaf) 0x10b0 0x2d10 .leaf) 0x10b1 0x2d11 (.node .leaf 0x10b2 0x2d12 .leaf))) 0x10b3 0x2d13
  (.node (.node (.node (.node .leaf 0x10b4 0x2d14 .leaf) 0x10b5 0x2d15 .leaf) 0x10b6 0x2d16 (.node (.node .leaf 0x10b7 0x2d17 .leaf) 0x10b8 0x2d18
  .leaf)) 0x10b9 0x2d19 (.node (.node (.node .leaf 0x10ba 0x2d1a .leaf) 0x10bb 0x2d1b .leaf) 0x10bc 0x2d1c (.node .leaf 0x10bd 0x2d1d .leaf)))) 0x10be
  0x2d1e (.node (.node (.node (.node (.node .leaf 0x10bf 0x2d1f .leaf) 0x10c0 0x2d20 .leaf) 0x10c1 0x2d21 (.node (.node .leaf 0x10c2 0x2d22 .leaf)
  0x10c3 0x2d23 .leaf)) 0x10c4 0x2d24 (.node (.node (.node .leaf 0x10c5 0x2d25 .leaf) 0x10c7 0x2d27 .leaf) 0x10cd 0x2d2d (.node .leaf 0x13f8 0x13f0
  .leaf))) 0x13f9 0x13f1 (.node (.node (.node (.node .leaf 0x13fa 0x13f2 .leaf) 0x13fb 0x13f3 .leaf) 0x13fc 0x13f4 (.node (.node .leaf 0x13fd 0x13f5
  .leaf) 0x1c80 0x432 .leaf)) 0x1c81 0x434 (.node (.node (.node .leaf 0x1c82 0x43e .leaf) 0x1c83 0x441 .leaf) 0x1c84 0x442 (.node .leaf 0x1c85 0x442
  .leaf)))))

def foldTree_aba : Tree Nat := .node foldTree_abaa 0x533 0x563 foldTree_abab

def foldTree_abba : Tree Nat :=
  .node (.node (.node (.node (.node (.node (.node .leaf 0x1c87 0x463 .leaf) 0x1c88 0xa64b .leaf) 0x1c90 0x10d0 (.node (.node .leaf 0x1c91 0x10d1
  .leaf) 0x1c92 0x10d2 .leaf)) 0x1c93 0x10d3 (.node (.node (.node .leaf 0x1c94 0x10d4 .leaf) 0x1c95 0x10d5 .leaf) 0x1c96 0x10d6 (.node (.node .leaf
  0x1c97 0x10d7 .leaf) 0x1c98 0x10d8 .leaf))) 0x1c99 0x10d9 (.node (.node (.node (.node .leaf 0x1c9a 0x10da .leaf) 0x1c9b 0x10db .leaf) 0x1c9c 0x10dc
  (.node (.node .leaf 0x1c9d 0x10dd .leaf) 0x1c9e 0x10de .leaf)) 0x1c9f 0x10df (.node (.node (.node .leaf 0x1ca0 0x10e0 .leaf) 0x1ca1 0x10e1 .leaf)
  0x1ca2 0x10e2 (.node .leaf 0x1ca3 0x10e3 .leaf)))) 0x1ca4 0x10e4 (.node (.node (.node (.node (.node .leaf 0x1ca5 0x10e5 .leaf) 0x1ca6 0x10e6 .leaf)
  0x1ca7 0x10e7 (.node (.node .leaf 0x1ca8 0x10e8 .leaf) 0x1ca9 0x10e9 .leaf)) 0x1caa 0x10ea (.node (.node (.node .leaf 0x1cab 0x10eb .leaf) 0x1cac
  0x10ec .leaf) 0x1cad 0x10ed (.node .leaf 0x1cae 0x10ee .leaf))) 0x1caf 0x10ef (.node (.node (.node (.node .leaf 0x1cb0 0x10f0 .leaf) 0x1cb1 0x10f1
  .leaf) 0x1cb2 0x10f2 (.node (.node .leaf 0x1cb3 0x10f3 .leaf) 0x1cb4 0x10f4 .leaf)) 0x1cb5 0x10f5 (.node (.node (.node .leaf 0x1cb6 0x10f6 .leaf)
  0x1cb7 0x10f7 .leaf) 0x1cb8 0x10f8 (.node .leaf 0x1cb9 0x10f9 .leaf))))) 0x1cba 0x10fa (.node (.node (.node (.node (.node (.node .leaf 0x1cbb 0x10fb
  .leaf) 0x1cbc 0x10fc .leaf) 0x1cbd 0x10fd (.node (.node .leaf 0x1cbe 0x10fe .leaf) 0x1cbf 0x10ff .leaf)) 0x1e00 0x1e01 (.node (.node (.node .leaf
  0x1e02 0x1e03 .leaf) 0x1e04 0x1e05 .leaf) 0x1e06 0x1e07 (.node .leaf 0x1e08 0x1e09 .leaf))) 0x1e0a 0x1e0b (.node (.node (.node (.node .leaf 0x1e0c
  0x1e0d .leaf) 0x1e0e 0x1e0f .leaf) 0x1e10 0x1e11 (.node (.node .leaf 0x1e12 0x1e13 .leaf) 0x1e14 0x1e15 .leaf)) 0x1e16 0x1e17 (.node (.node (.node
  .leaf 0x1e18 0x1e19 .leaf) 0x1e1a 0x1e1b .leaf) 0x1e1c 0x1e1d (.node .leaf 0x1e1e 0x1e1f .leaf)))) 0x1e20 0x1e21 (.node (.node (.node (.node (.node
  .leaf 0x1e22 0x1e23 .leaf) 0x1e24 0x1e25 .leaf) 0x1e26 0x1e27 (.node (.node .leaf 0x1e28 0x1e29 .leaf) 0x1e2a 0x1e2b .leaf)) 0x1e2c 0x1e2d (.node
  (.node (.node .leaf 0x1e2e 0x1e2f .leaf) 0x1e30 0x1e31 .leaf) 0x1e32 0x1e33 (.node .leaf 0x1e34 0x1e35 .leaf))) 0x1e36 0x1e37 (.node (.node (.node
  (.node .leaf 0x1e38 0x1e39 .leaf) 0x1e3a 0x1e3b .leaf) 0x1e3c 0x1e3d (.node (.node .leaf 0x1e3e 0x1e3f .leaf) 0x1e40 0x1e41 .leaf)) 0x1e42 0x1e43
  (.node (.node (.node .leaf 0x1e44 0x1e45 .leaf) 0x1e46 0x1e47 .leaf) 0x1e48 0x1e49 (.node .leaf 0x1e4a 0x1e4b .leaf)))))

def foldTree_abbb : Tree Nat :=
  .node (.node (.node (.node (.node (.node (.node .leaf 0x1e4e 0x1e4f .leaf) 0x1e50 0x1e51 .leaf) 0x1e52 0x1e53 (.node (.node .leaf 0x1e54 0x1e55
  .leaf) 0x1e56 0x1e57 .leaf)) 0x1e58 0x1e59 (.node (.node (.node .leaf 0x1e5a 0x1e5b .leaf) 0x1e5c 0x1e5d .leaf) 0x1e5e 0x1e5f (.node .leaf 0x1e60
  0x1e61 .leaf))) 0x1e62 0x1e63 (.node (.node (.node (.node .leaf 0x1e64 0x1e65 .leaf) 0x1e66 0x1e67 .leaf) 0x1e68 0x1e69 (.node (.node .leaf 0x1e6a
  0x1e6b .leaf) 0x1e6c 0x1e6d .leaf)) 0x1e6e 0x1e6f (.node (.node (.node .leaf 0x1e70 0x1e71 .leaf) 0x1e72 0x1e73 .leaf) 0x1e74 0x1e75 (.node .leaf
  0x1e76 0x1e77 .leaf)))) 0x1e78 0x1e79 (.node (.node (.node (.node (.node .leaf 0x1e7a 0x1e7b .leaf) 0x1e7c 0x1e7d .leaf) 0x1e7e 0x1e7f (.node (.node
  .leaf 0x1e80 0x1e81 .leaf) 0x1e82 0x1e83 .leaf)) 0x1e84 0x1e85 (.node (.node (.node .leaf 0x1e86 0x1e87 .leaf) 0x1e88 0x1e89 .leaf) 0x1e8a 0x1e8b
  (.node .leaf 0x1e8c 0x1e8d .leaf))) 0x1e8e 0x1e8f (.node (.node (.node (.node .leaf 0x1e90 0x1e91 .leaf) 0x1e92 0x1e93 .leaf) 0x1e94 0x1e95 (.node
  (.node .leaf 0x1e9b 0x1e61 .leaf) 0x1e9e 0xdf .leaf)) 0x1ea0 0x1ea1 (.node (.node (.node .leaf 0x1ea2 0x1ea3 .leaf) 0x1ea4 0x1ea5 .leaf) 0x1ea6
  0x1ea7 (.node .leaf 0x1ea8 0x1ea9 .leaf))))) 0x1eaa 0x1eab (.node (.node (.node (.node (.node (.node .leaf 0x1eac 0x1ead .leaf) 0x1eae 0x1eaf .leaf)
  0x1eb0 0x1eb1 (.node (.node .leaf 0x1eb2 0x1eb3 .leaf) 0x1eb4 0x1eb5 .leaf)) 0x1eb6 0x1eb7 (.node (.node (.node .leaf 0x1eb8 0x1eb9 .leaf) 0x1eba
  0x1ebb .leaf) 0x1ebc 0x1ebd (.node .leaf 0x1ebe 0x1ebf .leaf))) 0x1ec0 0x1ec1 (.node (.node (.node (.node .leaf 0x1ec2 0x1ec3 .leaf) 0x1ec4 0x1ec5
  .leaf) 0x1ec6 0x1ec7 (.node (.node .leaf 0x1ec8 0x1ec9 .leaf) 0x1eca 0x1ecb .leaf)) 0x1ecc 0x1ecd (.node (.node (.node .leaf 0x1ece 0x1ecf .leaf)
  0x1ed0 0x1ed1 .leaf) 0x1ed2 0x1ed3 (.node .leaf 0x1ed4 0x1ed5 .leaf)))) 0x1ed6 0x1ed7 (.node (.node (.node (.node (.node .leaf 0x1ed8 0x1ed9 .leaf)
  0x1eda 0x1edb .leaf) 0x1edc 0x1edd (.node (.node .leaf 0x1ede 0x1edf .leaf) 0x1ee0 0x1ee1 .leaf)) 0x1ee2 0x1ee3 (.node (.node (.node .leaf 0x1ee4
  0x1ee5 .leaf) 0x1ee6 0x1ee7 .leaf) 0x1ee8 0x1ee9 (.node .leaf 0x1eea 0x1eeb .leaf))) 0x1eec 0x1eed (.node (.node (.node (.node .leaf 0x1eee 0x1eef
  .leaf) 0x1ef0 0x1ef1 .leaf) 0x1ef2 0x1ef3 (.node (.node .leaf 0x1ef4 0x1ef5 .leaf) 0x1ef6 0x1ef7 .leaf)) 0x1ef8 0x1ef9 (.node (.node (.node .leaf
  0x1efa 0x1efb .leaf) 0x1efc 0x1efd .leaf) 0x1efe 0x1eff (.node .leaf 0x1f08 0x1f00 .leaf)))))

def foldTree_abb : Tree Nat := .node foldTree_abba 0x1e4c 0x1e4d foldTree_abbb

def foldTree_ab : Tree Nat := .node foldTree_aba 0x1c86 0x44a foldTree_abb

def foldTree_a : Tree Nat := .node foldTree_aa 0x47a 0x47b foldTree_ab

def foldTree_baaa : Tree Nat :=
  .node (.node (.node (.node (.node (.node (.node .leaf 0x1f0a 0x1f02 .leaf) 0x1f0b 0x1f03 .leaf) 0x1f0c 0x1f04 (.node (.node .leaf 0x1f0d 0x1f05
  .leaf) 0x1f0e 0x1f06 .leaf)) 0x1f0f 0x1f07 (.node (.node (.node .leaf 0x1f18 0x1f10 .leaf) 0x1f19 0x1f11 .leaf) 0x1f1a 0x1f12 (.node (.node .leaf
  0x1f1b 0x1f13 .leaf) 0x1f1c 0x1f14 .leaf))) 0x1f1d 0x1f15 (.node (.node (.node (.node .leaf 0x1f28 0x1f20 .leaf) 0x1f29 0x1f21 .leaf) 0x1f2a 0x1f22
  (.node (.node .leaf 0x1f2b 0x1f23 .leaf) 0x1f2c 0x1f24 .leaf)) 0x1f2d 0x1f25 (.node (.node (.node .leaf 0x1f2e 0x1f26 .leaf) 0x1f2f 0x1f27 .leaf)
  0x1f38 0x1f30 (.node .leaf 0x1f39 0x1f31 .leaf)))) 0x1f3a 0x1f32 (.node (.node (.node (.node (.node .leaf 0x1f3b 0x1f33 .leaf) 0x1f3c 0x1f34 .leaf)
  0x1f3d 0x1f35 (.node (.node .leaf 0x1f3e 0x1f36 .leaf) 0x1f3f 0x1f37 .leaf)) 0x1f48 0x1f40 (.node (.node (.node .leaf 0x1f49 0x1f41 .leaf) 0x1f4a
  0x1f42 .leaf) 0x1f4b 0x1f43 (.node .leaf 0x1f4c 0x1f44 .leaf))) 0x1f4d 0x1f45 (.node (.node (.node (.node .leaf 0x1f59 0x1f51 .leaf) 0x1f5b 0x1f53
  .leaf) 0x1f5d 0x1f55 (.node (.node .leaf 0x1f5f 0x1f57 .leaf) 0x1f68 0x1f60 .leaf)) 0x1f69 0x1f61 (.node (.node (.node .leaf 0x1f6a 0x1f62 .leaf)
  0x1f6b 0x1f63 .leaf) 0x1f6c 0x1f64 (.node .leaf 0x1f6d 0x1f65 .leaf))))) 0x1f6e 0x1f66 (.node (.node (.node (.node (.node (.node .leaf 0x1f6f 0x1f67
  .leaf) 0x1f88 0x1f80 .leaf) 0x1f89 0x1f81 (.node (.node .leaf 0x1f8a 0x1f82 .leaf) 0x1f8b 0x1f83 .leaf)) 0x1f8c 0x1f84 (.node (.node (.node .leaf
  0x1f8d 0x1f85 .leaf) 0x1f8e 0x1f86 .leaf) 0x1f8f 0x1f87 (.node .leaf 0x1f98 0x1f90 .leaf))) 0x1f99 0x1f91 (.node (.node (.node (.node .leaf 0x1f9a
  0x1f92 .leaf) 0x1f9b 0x1f93 .leaf) 0x1f9c 0x1f94 (.node (.node .leaf 0x1f9d 0x1f95 .leaf) 0x1f9e 0x1f96 .leaf)) 0x1f9f 0x1f97 (.node (.node (.node
  .leaf 0x1fa8 0x1fa0 .leaf) 0x1fa9 0x1fa1 .leaf) 0x1faa 0x1fa2 (.node .leaf 0x1fab 0x1fa3 .leaf)))) 0x1fac 0x1fa4 (.node (.node (.node (.node (.node
  .leaf 0x1fad 0x1fa5 .leaf) 0x1fae 0x1fa6 .leaf) 0x1faf 0x1fa7 (.node (.node .leaf 0x1fb8 0x1fb0 .leaf) 0x1fb9 0x1fb1 .leaf)) 0x1fba 0x1f70 (.node
  (.node (.node .leaf 0x1fbb 0x1f71 .leaf) 0x1fbc 0x1fb3 .leaf) 0x1fbe 0x3b9 (.node .leaf 0x1fc8 0x1f72 .leaf))) 0x1fc9 0x1f73 (.node (.node (.node
  (.node .leaf 0x1fca 0x1f74 .leaf) 0x1fcb 0x1f75 .leaf) 0x1fcc 0x1fc3 (.node (.node .leaf 0x1fd8 0x1fd0 .leaf) 0x1fd9 0x1fd1 .leaf)) 0x1fda 0x1f76
  (.node (.node (.node .leaf 0x1fdb 0x1f77 .leaf) 0x1fe8 0x1fe0 .leaf) 0x1fe9 0x1fe1 (.node .leaf 0x1fea 0x1f7a .leaf)))))

def foldTree_baab : Tree Nat :=
  .node (.node (.node (.node (.node (.node (.node .leaf 0x1fec 0x1fe5 .leaf) 0x1ff8 0x1f78 .leaf) 0x1ff9 0x1f79 (.node (.node .leaf 0x1ffa 0x1f7c
  .leaf) 0x1ffb 0x1f7d .leaf)) 0x1ffc 0x1ff3 (.node (.node (.node .leaf 0x2126 0x3c9 .leaf) 0x212a 0x6b .leaf) 0x212b 0xe5 (.node .leaf 0x2132 0x214e
  .leaf))) 0x2160 0x2170 (.node (.node (.node (.node .leaf 0x2161 0x2171 .leaf) 0x2162 0x2172 .leaf) 0x2163 0x2173 (.node (.node .leaf 0x2164 0x2174
  .leaf) 0x2165 0x2175 .leaf)) 0x2166 0x2176 (.node (.node (.node .leaf 0x2167 0x2177 .leaf) 0x2168 0x2178 .leaf) 0x2169 0x2179 (.node .leaf 0x216a
  0x217a .leaf)))) 0x216b 0x217b (.node (.node (.node (.node (.node .leaf 0x216c 0x217c .leaf) 0x216d 0x217d .leaf) 0x216e 0x217e (.node (.node .leaf
  0x216f 0x217f .leaf) 0x2183 0x2184 .leaf)) 0x24b6 0x24d0 (.node (.node (.node .leaf 0x24b7 0x24d1 .leaf) 0x24b8 0x24d2 .leaf) 0x24b9 0x24d3 (.node
  .leaf 0x24ba 0x24d4 .leaf))) 0x24bb 0x24d5 (.node (.node (.node (.node .leaf 0x24bc 0x24d6 .leaf) 0x24bd 0x24d7 .leaf) 0x24be 0x24d8 (.node (.node
  .leaf 0x24bf 0x24d9 .leaf) 0x24c0 0x24da .leaf)) 0x24c1 0x24db (.node (.node (.node .leaf 0x24c2 0x24dc .leaf) 0x24c3 0x24dd .leaf) 0x24c4 0x24de
  (.node .leaf 0x24c5 0x24df .leaf))))) 0x24c6 0x24e0 (.node (.node (.node (.node (.node (.node .leaf 0x24c7 0x24e1 .leaf) 0x24c8 0x24e2 .leaf) 0x24c9
  0x24e3 (.node (.node .leaf 0x24ca 0x24e4 .leaf) 0x24cb 0x24e5 .leaf)) 0x24cc 0x24e6 (.node (.node (.node .leaf 0x24cd 0x24e7 .leaf) 0x24ce 0x24e8
  .leaf) 0x24cf 0x24e9 (.node .leaf 0x2c00 0x2c30 .leaf))) 0x2c01 0x2c31 (.node (.node (.node (.node .leaf 0x2c02 0x2c32 .leaf) 0x2c03 0x2c33 .leaf)
  0x2c04 0x2c34 (.node (.node .leaf 0x2c05 0x2c35 .leaf) 0x2c06 0x2c36 .leaf)) 0x2c07 0x2c37 (.node (.node (.node .leaf 0x2c08 0x2c38 .leaf) 0x2c09
  0x2c39 .leaf) 0x2c0a 0x2c3a (.node .leaf 0x2c0b 0x2c3b .leaf)))) 0x2c0c 0x2c3c (.node (.node (.node (.node (.node .leaf 0x2c0d 0x2c3d .leaf) 0x2c0e
  0x2c3e .leaf) 0x2c0f 0x2c3f (.node (.node .leaf 0x2c10 0x2c40 .leaf) 0x2c11 0x2c41 .leaf)) 0x2c12 0x2c42 (.node (.node (.node .leaf 0x2c13 0x2c43
  .leaf) 0x2c14 0x2c44 .leaf) 0x2c15 0x2c45 (.node .leaf 0x2c16 0x2c46 .leaf))) 0x2c17 0x2c47 (.node (.node (.node (.node .leaf 0x2c18 0x2c48 .leaf)
  0x2c19 0x2c49 .leaf) 0x2c1a 0x2c4a (.node (.node .leaf 0x2c1b 0x2c4b .leaf) 0x2c1c 0x2c4c .leaf)) 0x2c1d 0x2c4d (.node (.node (.node .leaf 0x2c1e
  0x2c4e .leaf) 0x2c1f 0x2c4f .leaf) 0x2c20 0x2c50 (.node .leaf 0x2c21 0x2c51 .leaf)))))

def foldTree_baa : Tree Nat := .node foldTree_baaa 0x1feb 0x1f7b foldTree_baab

def foldTree_baba : Tree Nat :=
  .node (.node (.node (.node (.node (.node (.node .leaf 0x2c23 0x2c53 .leaf) 0x2c24 0x2c54 .leaf) 0x2c25 0x2c55 (.node (.node .leaf 0x2c26 0x2c56
  .leaf) 0x2c27 0x2c57 .leaf)) 0x2c28 0x2c58 (.node (.node (.node .leaf 0x2c29 0x2c59 .leaf) 0x2c2a 0x2c5a .leaf) 0x2c2b 0x2c5b (.node (.node .leaf
  0x2c2c 0x2c5c .leaf) 0x2c2d 0x2c5d .leaf))) 0x2c2e 0x2c5e (.node (.node (.node (.node .leaf 0x2c60 0x2c61 .leaf) 0x2c62 0x26b .leaf) 0x2c63 0x1d7d
  (.node (.node .leaf 0x2c64 0x27d .leaf) 0x2c67 0x2c68 .leaf)) 0x2c69 0x2c6a (.node (.node (.node .leaf 0x2c6b 0x2c6c .leaf) 0x2c6d 0x251 .leaf)
  0x2c6e 0x271 (.node .leaf 0x2c6f 0x250 .leaf)))) 0x2c70 0x252 (.node (.node (.node (.node (.node .leaf 0x2c72 0x2c73 .leaf) 0x2c75 0x2c76 .leaf)
  0x2c7e 0x23f (.node (.node .leaf 0x2c7f 0x240 .leaf) 0x2c80 0x2c81 .leaf)) 0x2c82 0x2c83 (.node (.node (.node .leaf 0x2c84 0x2c85 .leaf) 0x2c86
  0x2c87 .leaf) 0x2c88 0x2c89 (.node .leaf 0x2c8a 0x2c8b .leaf))) 0x2c8c 0x2c8d (.node (.node (.node (.node .leaf 0x2c8e 0x2c8f .leaf) 0x2c90 0x2c91
  .leaf) 0x2c92 0x2c93 (.node (.node .leaf 0x2c94 0x2c95 .leaf) 0x2c96 0x2c97 .leaf)) 0x2c98 0x2c99 (.node (.node (.node .leaf 0x2c9a 0x2c9b .leaf)
  0x2c9c 0x2c9d .leaf) 0x2c9e 0x2c9f (.node .leaf 0x2ca0 0x2ca1 .leaf))))) 0x2ca2 0x2ca3 (.node (.node (.node (.node (.node (.node .leaf 0x2ca4 0x2ca5
  .leaf) 0x2ca6 0x2ca7 .leaf) 0x2ca8 0x2ca9 (.node (.node .leaf 0x2caa 0x2cab .leaf) 0x2cac 0x2cad .leaf)) 0x2cae 0x2caf (.node (.node (.node .leaf
  0x2cb0 0x2cb1 .leaf) 0x2cb2 0x2cb3 .leaf) 0x2cb4 0x2cb5 (.node .leaf 0x2cb6 0x2cb7 .leaf))) 0x2cb8 0x2cb9 (.node (.node (.node (.node .leaf 0x2cba
  0x2cbb .leaf) 0x2cbc 0x2cbd .leaf) 0x2cbe 0x2cbf (.node (.node .leaf 0x2cc0 0x2cc1 .leaf) 0x2cc2 0x2cc3 .leaf)) 0x2cc4 0x2cc5 (.node (.node (.node
  .leaf 0x2cc6 0x2cc7 .leaf) 0x2cc8 0x2cc9 .leaf) 0x2cca 0x2ccb (.node .leaf 0x2ccc 0x2ccd .leaf)))) 0x2cce 0x2ccf (.node (.node (.node (.node (.node
  .leaf 0x2cd0 0x2cd1 .leaf) 0x2cd2 0x2cd3 .leaf) 0x2cd4 0x2cd5 (.node (.node .leaf 0x2cd6 0x2cd7 .leaf) 0x2cd8 0x2cd9 .leaf)) 0x2cda 0x2cdb (.node
  (.node (.node .leaf 0x2cdc 0x2cdd .leaf) 0x2cde 0x2cdf .leaf) 0x2ce0 0x2ce1 (.node .leaf 0x2ce2 0x2ce3 .leaf))) 0x2ceb 0x2cec (.node (.node (.node
  (.node .leaf 0x2ced 0x2cee .leaf) 0x2cf2 0x2cf3 .leaf) 0xa640 0xa641 (.node (.node .leaf 0xa642 0xa643 .leaf) 0xa644 0xa645 .leaf)) 0xa646 0xa647
  (.node (.node (.node .leaf 0xa648 0xa649 .leaf) 0xa64a 0xa64b .leaf) 0xa64c 0xa64d (.node .leaf 0xa64e 0xa64f .leaf)))))

def foldTree_babb : Tree Nat :=
  .node (.node (.node (.node (.node (.node (.node .leaf 0xa652 0xa653 .leaf) 0xa654 0xa655 .leaf) 0xa656 0xa657 (.node (.node .leaf 0xa658 0xa659
  .leaf) 0xa65a 0xa65b .leaf)) 0xa65c 0xa65d (.node (.node (.node .leaf 0xa65e 0xa65f .leaf) 0xa660 0xa661 .leaf) 0xa662 0xa663 (.node .leaf 0xa664
  0xa665 .leaf))) 0xa666 0xa667 (.node (.node (.node (.node .leaf 0xa668 0xa669 .leaf) 0xa66a 0xa66b .leaf) 0xa66c 0xa66d (.node (.node .leaf 0xa680
  0xa681 .leaf) 0xa682 0xa683 .leaf)) 0xa684 0xa685 (.node (.node (.node .leaf 0xa686 0xa687 .leaf) 0xa688 0xa689 .leaf) 0xa68a 0xa68b (.node .leaf
  0xa68c 0xa68d .leaf)))) 0xa68e 0xa68f (.node (.node (.node (.node (.node .leaf 0xa690 0xa691 .leaf) 0xa692 0xa693 .leaf) 0xa694 0xa695 (.node (.node
  .leaf 0xa696 0xa697 .leaf) 0xa698 0xa699 .leaf)) 0xa69a 0xa69b (.node (.node (.node .leaf 0xa722 0xa723 .leaf) 0xa724 0xa725 .leaf) 0xa726 0xa727
  (.node .leaf 0xa728 0xa729 .leaf))) 0xa72a 0xa72b (.node (.node (.node (.node .leaf 0xa72c 0xa72d .leaf) 0xa72e 0xa72f .leaf) 0xa732 0xa733 (.node
  (.node .leaf 0xa734 0xa735 .leaf) 0xa736 0xa737 .leaf)) 0xa738 0xa739 (.node (.node (.node .leaf 0xa73a 0xa73b .leaf) 0xa73c 0xa73d .leaf) 0xa73e
  0xa73f (.node .leaf 0xa740 0xa741 .leaf))))) 0xa742 0xa743 (.node (.node (.node (.node (.node (.node .leaf 0xa744 0xa745 .leaf) 0xa746 0xa747 .leaf)
  0xa748 0xa749 (.node (.node .leaf 0xa74a 0xa74b .leaf) 0xa74c 0xa74d .leaf)) 0xa74e 0xa74f (.node (.node (.node .leaf 0xa750 0xa751 .leaf) 0xa752
  0xa753 .leaf) 0xa754 0xa755 (.node .leaf 0xa756 0xa757 .leaf))) 0xa758 0xa759 (.node (.node (.node (.node .leaf 0xa75a 0xa75b .leaf) 0xa75c 0xa75d
  .leaf) 0xa75e 0xa75f (.node (.node .leaf 0xa760 0xa761 .leaf) 0xa762 0xa763 .leaf)) 0xa764 0xa765 (.node (.node (.node .leaf 0xa766 0xa767 .leaf)
  0xa768 0xa769 .leaf) 0xa76a 0xa76b (.node .leaf 0xa76c 0xa76d .leaf)))) 0xa76e 0xa76f (.node (.node (.node (.node (.node .leaf 0xa779 0xa77a .leaf)
  0xa77b 0xa77c .leaf) 0xa77d 0x1d79 (.node (.node .leaf 0xa77e 0xa77f .leaf) 0xa780 0xa781 .leaf)) 0xa782 0xa783 (.node (.node (.node .leaf 0xa784
  0xa785 .leaf) 0xa786 0xa787 .leaf) 0xa78b 0xa78c (.node .leaf 0xa78d 0x265 .leaf))) 0xa790 0xa791 (.node (.node (.node (.node .leaf 0xa792 0xa793
  .leaf) 0xa796 0xa797 .leaf) 0xa798 0xa799 (.node (.node .leaf 0xa79a 0xa79b .leaf) 0xa79c 0xa79d .leaf)) 0xa79e 0xa79f (.node (.node (.node .leaf
  0xa7a0 0xa7a1 .leaf) 0xa7a2 0xa7a3 .leaf) 0xa7a4 0xa7a5 (.node .leaf 0xa7a6 0xa7a7 .leaf)))))

def foldTree_bab : Tree Nat := .node foldTree_baba 0xa650 0xa651 foldTree_babb

def foldTree_ba : Tree Nat := .node foldTree_baa 0x2c22 0x2c52 foldTree_bab

def foldTree_bbaa : Tree Nat :=
  .node (.node (.node (.node (.node (.node (.node .leaf 0xa7aa 0x266 .leaf) 0xa7ab 0x25c .leaf) 0xa7ac 0x261 (.node (.node .leaf 0xa7ad 0x26c .leaf)
  0xa7ae 0x26a .leaf)) 0xa7b0 0x29e (.node (.node (.node .leaf 0xa7b1 0x287 .leaf) 0xa7b2 0x29d .leaf) 0xa7b3 0xab53 (.node (.node .leaf 0xa7b4 0xa7b5
  .leaf) 0xa7b6 0xa7b7 .leaf))) 0xa7b8 0xa7b9 (.node (.node (.node (.node .leaf 0xa7ba 0xa7bb .leaf) 0xa7bc 0xa7bd .leaf) 0xa7be 0xa7bf (.node (.node
  .leaf 0xa7c2 0xa7c3 .leaf) 0xa7c4 0xa794 .leaf)) 0xa7c5 0x282 (.node (.node (.node .leaf 0xa7c6 0x1d8e .leaf) 0xa7c7 0xa7c8 .leaf) 0xa7c9 0xa7ca
  (.node .leaf 0xa7f5 0xa7f6 .leaf)))) 0xab70 0x13a0 (.node (.node (.node (.node (.node .leaf 0xab71 0x13a1 .leaf) 0xab72 0x13a2 .leaf) 0xab73 0x13a3
  (.node (.node .leaf 0xab74 0x13a4 .leaf) 0xab75 0x13a5 .leaf)) 0xab76 0x13a6 (.node (.node (.node .leaf 0xab77 0x13a7 .leaf) 0xab78 0x13a8 .leaf)
  0xab79 0x13a9 (.node .leaf 0xab7a 0x13aa .leaf))) 0xab7b 0x13ab (.node (.node (.node (.node .leaf 0xab7c 0x13ac .leaf) 0xab7d 0x13ad .leaf) 0xab7e
  0x13ae (.node (.node .leaf 0xab7f 0x13af .leaf) 0xab80 0x13b0 .leaf)) 0xab81 0x13b1 (.node (.node (.node .leaf 0xab82 0x13b2 .leaf) 0xab83 0x13b3
  .leaf) 0xab84 0x13b4 (.node .leaf 0xab85 0x13b5 .leaf))))) 0xab86 0x13b6 (.node (.node (.node (.node (.node (.node .leaf 0xab87 0x13b7 .leaf) 0xab88
  0x13b8 .leaf) 0xab89 0x13b9 (.node (.node .leaf 0xab8a 0x13ba .leaf) 0xab8b 0x13bb .leaf)) 0xab8c 0x13bc (.node (.node (.node .leaf 0xab8d 0x13bd
  .leaf) 0xab8e 0x13be .leaf) 0xab8f 0x13bf (.node .leaf 0xab90 0x13c0 .leaf))) 0xab91 0x13c1 (.node (.node (.node (.node .leaf 0xab92 0x13c2 .leaf)
  0xab93 0x13c3 .leaf) 0xab94 0x13c4 (.node (.node .leaf 0xab95 0x13c5 .leaf) 0xab96 0x13c6 .leaf)) 0xab97 0x13c7 (.node (.node (.node .leaf 0xab98
  0x13c8 .leaf) 0xab99 0x13c9 .leaf) 0xab9a 0x13ca (.node .leaf 0xab9b 0x13cb .leaf)))) 0xab9c 0x13cc (.node (.node (.node (.node (.node .leaf 0xab9d
  0x13cd .leaf) 0xab9e 0x13ce .leaf) 0xab9f 0x13cf (.node (.node .leaf 0xaba0 0x13d0 .leaf) 0xaba1 0x13d1 .leaf)) 0xaba2 0x13d2 (.node (.node (.node
  .leaf 0xaba3 0x13d3 .leaf) 0xaba4 0x13d4 .leaf) 0xaba5 0x13d5 (.node .leaf 0xaba6 0x13d6 .leaf))) 0xaba7 0x13d7 (.node (.node (.node (.node .leaf
  0xaba8 0x13d8 .leaf) 0xaba9 0x13d9 .leaf) 0xabaa 0x13da (.node (.node .leaf 0xabab 0x13db .leaf) 0xabac 0x13dc .leaf)) 0xabad 0x13dd (.node (.node
  (.node .leaf 0xabae 0x13de .leaf) 0xabaf 0x13df .leaf) 0xabb0 0x13e0 (.node .leaf 0xabb1 0x13e1 .leaf)))))

def foldTree_bbab : Tree Nat :=
  .node (.node (.node (.node (.node (.node (.node .leaf 0xabb3 0x13e3 .leaf) 0xabb4 0x13e4 .leaf) 0xabb5 0x13e5 (.node (.node .leaf 0xabb6 0x13e6
  .leaf) 0xabb7 0x13e7 .leaf)) 0xabb8 0x13e8 (.node (.node (.node .leaf 0xabb9 0x13e9 .leaf) 0xabba 0x13ea .leaf) 0xabbb 0x13eb (.node .leaf 0xabbc
  0x13ec .leaf))) 0xabbd 0x13ed (.node (.node (.node (.node .leaf 0xabbe 0x13ee .leaf) 0xabbf 0x13ef .leaf) 0xff21 0xff41 (.node (.node .leaf 0xff22
  0xff42 .leaf) 0xff23 0xff43 .leaf)) 0xff24 0xff44 (.node (.node (.node .leaf 0xff25 0xff45 .leaf) 0xff26 0xff46 .leaf) 0xff27 0xff47 (.node .leaf
  0xff28 0xff48 .leaf)))) 0xff29 0xff49 (.node (.node (.node (.node (.node .leaf 0xff2a 0xff4a .leaf) 0xff2b 0xff4b .leaf) 0xff2c 0xff4c (.node (.node
  .leaf 0xff2d 0xff4d .leaf) 0xff2e 0xff4e .leaf)) 0xff2f 0xff4f (.node (.node (.node .leaf 0xff30 0xff50 .leaf) 0xff31 0xff51 .leaf) 0xff32 0xff52
  (.node .leaf 0xff33 0xff53 .leaf))) 0xff34 0xff54 (.node (.node (.node (.node .leaf 0xff35 0xff55 .leaf) 0xff36 0xff56 .leaf) 0xff37 0xff57 (.node
  (.node .leaf 0xff38 0xff58 .leaf) 0xff39 0xff59 .leaf)) 0xff3a 0xff5a (.node (.node (.node .leaf 0x10400 0x10428 .leaf) 0x10401 0x10429 .leaf)
  0x10402 0x1042a (.node .leaf 0x10403 0x1042b .leaf))))) 0x10404 0x1042c (.node (.node (.node (.node (.node (.node .leaf 0x10405 0x1042d .leaf)
  0x10406 0x1042e .leaf) 0x10407 0x1042f (.node (.node .leaf 0x10408 0x10430 .leaf) 0x10409 0x10431 .leaf)) 0x1040a 0x10432 (.node (.node (.node .leaf
  0x1040b 0x10433 .leaf) 0x1040c 0x10434 .leaf) 0x1040d 0x10435 (.node .leaf 0x1040e 0x10436 .leaf))) 0x1040f 0x10437 (.node (.node (.node (.node
  .leaf 0x10410 0x10438 .leaf) 0x10411 0x10439 .leaf) 0x10412 0x1043a (.node (.node .leaf 0x10413 0x1043b .leaf) 0x10414 0x1043c .leaf)) 0x10415
  0x1043d (.node (.node (.node .leaf 0x10416 0x1043e .leaf) 0x10417 0x1043f .leaf) 0x10418 0x10440 (.node .leaf 0x10419 0x10441 .leaf)))) 0x1041a
  0x10442 (.node (.node (.node (.node (.node .leaf 0x1041b 0x10443 .leaf) 0x1041c 0x10444 .leaf) 0x1041d 0x10445 (.node (.node .leaf 0x1041e 0x10446
  .leaf) 0x1041f 0x10447 .leaf)) 0x10420 0x10448 (.node (.node (.node .leaf 0x10421 0x10449 .leaf) 0x10422 0x1044a .leaf) 0x10423 0x1044b (.node .leaf
  0x10424 0x1044c .leaf))) 0x10425 0x1044d (.node (.node (.node (.node .leaf 0x10426 0x1044e .leaf) 0x10427 0x1044f .leaf) 0x104b0 0x104d8 (.node
  (.node .leaf 0x104b1 0x104d9 .leaf) 0x104b2 0x104da .leaf)) 0x104b3 0x104db (.node (.node (.node .leaf 0x104b4 0x104dc .leaf) 0x104b5 0x104dd .leaf)
  0x104b6 0x104de (.node .leaf 0x104b7 0x104df .leaf)))))

def foldTree_bba : Tree Nat := .node foldTree_bbaa 0xabb2 0x13e2 foldTree_bbab

def foldTree_bbba : Tree Nat :=
  .node (.node (.node (.node (.node (.node (.node .leaf 0x104b9 0x104e1 .leaf) 0x104ba 0x104e2 .leaf) 0x104bb 0x104e3 (.node (.node .leaf 0x104bc
  0x104e4 .leaf) 0x104bd 0x104e5 .leaf)) 0x104be 0x104e6 (.node (.node (.node .leaf 0x104bf 0x104e7 .leaf) 0x104c0 0x104e8 .leaf) 0x104c1 0x104e9
  (.node (.node .leaf 0x104c2 0x104ea .leaf) 0x104c3 0x104eb .leaf))) 0x104c4 0x104ec (.node (.node (.node (.node .leaf 0x104c5 0x104ed .leaf) 0x104c6
  0x104ee .leaf) 0x104c7 0x104ef (.node (.node .leaf 0x104c8 0x104f0 .leaf) 0x104c9 0x104f1 .leaf)) 0x104ca 0x104f2 (.node (.node (.node .leaf 0x104cb
  0x104f3 .leaf) 0x104cc 0x104f4 .leaf) 0x104cd 0x104f5 (.node .leaf 0x104ce 0x104f6 .leaf)))) 0x104cf 0x104f7 (.node (.node (.node (.node (.node
  .leaf 0x104d0 0x104f8 .leaf) 0x104d1 0x104f9 .leaf) 0x104d2 0x104fa (.node (.node .leaf 0x104d3 0x104fb .leaf) 0x10c80 0x10cc0 .leaf)) 0x10c81
  0x10cc1 (.node (.node (.node .leaf 0x10c82 0x10cc2 .leaf) 0x10c83 0x10cc3 .leaf) 0x10c84 0x10cc4 (.node .leaf 0x10c85 0x10cc5 .leaf))) 0x10c86
  0x10cc6 (.node (.node (.node (.node .leaf 0x10c87 0x10cc7 .leaf) 0x10c88 0x10cc8 .leaf) 0x10c89 0x10cc9 (.node (.node .leaf 0x10c8a 0x10cca .leaf)
  0x10c8b 0x10ccb .leaf)) 0x10c8c 0x10ccc (.node (.node (.node .leaf 0x10c8d 0x10ccd .leaf) 0x10c8e 0x10cce .leaf) 0x10c8f 0x10ccf (.node .leaf
  0x10c90 0x10cd0 .leaf))))) 0x10c91 0x10cd1 (.node (.node (.node (.node (.node (.node .leaf 0x10c92 0x10cd2 .leaf) 0x10c93 0x10cd3 .leaf) 0x10c94
  0x10cd4 (.node (.node .leaf 0x10c95 0x10cd5 .leaf) 0x10c96 0x10cd6 .leaf)) 0x10c97 0x10cd7 (.node (.node (.node .leaf 0x10c98 0x10cd8 .leaf) 0x10c99
  0x10cd9 .leaf) 0x10c9a 0x10cda (.node .leaf 0x10c9b 0x10cdb .leaf))) 0x10c9c 0x10cdc (.node (.node (.node (.node .leaf 0x10c9d 0x10cdd .leaf)
  0x10c9e 0x10cde .leaf) 0x10c9f 0x10cdf (.node (.node .leaf 0x10ca0 0x10ce0 .leaf) 0x10ca1 0x10ce1 .leaf)) 0x10ca2 0x10ce2 (.node (.node (.node .leaf
  0x10ca3 0x10ce3 .leaf) 0x10ca4 0x10ce4 .leaf) 0x10ca5 0x10ce5 (.node .leaf 0x10ca6 0x10ce6 .leaf)))) 0x10ca7 0x10ce7 (.node (.node (.node (.node
  (.node .leaf 0x10ca8 0x10ce8 .leaf) 0x10ca9 0x10ce9 .leaf) 0x10caa 0x10cea (.node (.node .leaf 0x10cab 0x10ceb .leaf) 0x10cac 0x10cec .leaf))
  0x10cad 0x10ced (.node (.node (.node .leaf 0x10cae 0x10cee .leaf) 0x10caf 0x10cef .leaf) 0x10cb0 0x10cf0 (.node .leaf 0x10cb1 0x10cf1 .leaf)))
  0x10cb2 0x10cf2 (.node (.node (.node (.node .leaf 0x118a0 0x118c0 .leaf) 0x118a1 0x118c1 .leaf) 0x118a2 0x118c2 (.node (.node .leaf 0x118a3 0x118c3
  .leaf) 0x118a4 0x118c4 .leaf)) 0x118a5 0x118c5 (.node (.node (.node .leaf 0x118a6 0x118c6 .leaf) 0x118a7 0x118c7 .leaf) 0x118a8 0x118c8 (.node .leaf
  0x118a9 0x118c9 .leaf)))))

def foldTree_bbbb : Tree Nat :=
  .node (.node (.node (.node (.node (.node (.node .leaf 0x118ab 0x118cb .leaf) 0x118ac 0x118cc .leaf) 0x118ad 0x118cd (.node (.node .leaf 0x118ae
  0x118ce .leaf) 0x118af 0x118cf .leaf)) 0x118b0 0x118d0 (.node (.node (.node .leaf 0x118b1 0x118d1 .leaf) 0x118b2 0x118d2 .leaf) 0x118b3 0x118d3
  (.node .leaf 0x118b4 0x118d4 .leaf))) 0x118b5 0x118d5 (.node (.node (.node (.node .leaf 0x118b6 0x118d6 .leaf) 0x118b7 0x118d7 .leaf) 0x118b8
  0x118d8 (.node (.node .leaf 0x118b9 0x118d9 .leaf) 0x118ba 0x118da .leaf)) 0x118bb 0x118db (.node (.node (.node .leaf 0x118bc 0x118dc .leaf) 0x118bd
  0x118dd .leaf) 0x118be 0x118de (.node .leaf 0x118bf 0x118df .leaf)))) 0x16e40 0x16e60 (.node (.node (.node (.node (.node .leaf 0x16e41 0x16e61
  .leaf) 0x16e42 0x16e62 .leaf) 0x16e43 0x16e63 (.node (.node .leaf 0x16e44 0x16e64 .leaf) 0x16e45 0x16e65 .leaf)) 0x16e46 0x16e66 (.node (.node
  (.node .leaf 0x16e47 0x16e67 .leaf) 0x16e48 0x16e68 .leaf) 0x16e49 0x16e69 (.node .leaf 0x16e4a 0x16e6a .leaf))) 0x16e4b 0x16e6b (.node (.node
  (.node (.node .leaf 0x16e4c 0x16e6c .leaf) 0x16e4d 0x16e6d .leaf) 0x16e4e 0x16e6e (.node (.node .leaf 0x16e4f 0x16e6f .leaf) 0x16e50 0x16e70 .leaf))
  0x16e51 0x16e71 (.node (.node (.node .leaf 0x16e52 0x16e72 .leaf) 0x16e53 0x16e73 .leaf) 0x16e54 0x16e74 (.node .leaf 0x16e55 0x16e75 .leaf)))))
  0x16e56 0x16e76 (.node (.node (.node (.node (.node (.node .leaf 0x16e57 0x16e77 .leaf) 0x16e58 0x16e78 .leaf) 0x16e59 0x16e79 (.node (.node .leaf
  0x16e5a 0x16e7a .leaf) 0x16e5b 0x16e7b .leaf)) 0x16e5c 0x16e7c (.node (.node (.node .leaf 0x16e5d 0x16e7d .leaf) 0x16e5e 0x16e7e .leaf) 0x16e5f
  0x16e7f (.node .leaf 0x1e900 0x1e922 .leaf))) 0x1e901 0x1e923 (.node (.node (.node (.node .leaf 0x1e902 0x1e924 .leaf) 0x1e903 0x1e925 .leaf)
  0x1e904 0x1e926 (.node (.node .leaf 0x1e905 0x1e927 .leaf) 0x1e906 0x1e928 .leaf)) 0x1e907 0x1e929 (.node (.node (.node .leaf 0x1e908 0x1e92a .leaf)
  0x1e909 0x1e92b .leaf) 0x1e90a 0x1e92c (.node .leaf 0x1e90b 0x1e92d .leaf)))) 0x1e90c 0x1e92e (.node (.node (.node (.node (.node .leaf 0x1e90d
  0x1e92f .leaf) 0x1e90e 0x1e930 .leaf) 0x1e90f 0x1e931 (.node (.node .leaf 0x1e910 0x1e932 .leaf) 0x1e911 0x1e933 .leaf)) 0x1e912 0x1e934 (.node
  (.node (.node .leaf 0x1e913 0x1e935 .leaf) 0x1e914 0x1e936 .leaf) 0x1e915 0x1e937 (.node .leaf 0x1e916 0x1e938 .leaf))) 0x1e917 0x1e939 (.node
  (.node (.node (.node .leaf 0x1e918 0x1e93a .leaf) 0x1e919 0x1e93b .leaf) 0x1e91a 0x1e93c (.node (.node .leaf 0x1e91b 0x1e93d .leaf) 0x1e91c 0x1e93e
  .leaf)) 0x1e91d 0x1e93f (.node (.node (.node .leaf 0x1e91e 0x1e940 .leaf) 0x1e91f 0x1e941 .leaf) 0x1e920 0x1e942 (.node .leaf 0x1e921 0x1e943
  .leaf)))))

def foldTree_bbb : Tree Nat := .node foldTree_bbba 0x118aa 0x118ca foldTree_bbbb

def foldTree_bb : Tree Nat := .node foldTree_bba 0x104b8 0x104e0 foldTree_bbb

def foldTree_b : Tree Nat := .node foldTree_ba 0xa7a8 0xa7a9 foldTree_bb

/-- case foldings of libfsapfs_name.c other than the character itself -/
def foldTree : Tree Nat := .node foldTree_a 0x1f09 0x1f01 foldTree_b

def decTree_aaaaa : Tree (List Nat) :=
  .node (.node (.node (.node (.node (.node (.node .leaf 0xc0 [0x41, 0x300] .leaf) 0xc1 [0x41, 0x301] .leaf) 0xc2 [0x41, 0x302] (.node .leaf 0xc3
  [0x41, 0x303] .leaf)) 0xc4 [0x41, 0x308] (.node (.node .leaf 0xc5 [0x41, 0x30a] .leaf) 0xc7 [0x43, 0x327] (.node .leaf 0xc8 [0x45, 0x300] .leaf)))
  0xc9 [0x45, 0x301] (.node (.node (.node .leaf 0xca [0x45, 0x302] .leaf) 0xcb [0x45, 0x308] (.node .leaf 0xcc [0x49, 0x300] .leaf)) 0xcd [0x49,
  0x301] (.node (.node .leaf 0xce [0x49, 0x302] .leaf) 0xcf [0x49, 0x308] (.node .leaf 0xd1 [0x4e, 0x303] .leaf)))) 0xd2 [0x4f, 0x300] (.node (.node
  (.node (.node .leaf 0xd3 [0x4f, 0x301] .leaf) 0xd4 [0x4f, 0x302] (.node .leaf 0xd5 [0x4f, 0x303] .leaf)) 0xd6 [0x4f, 0x308] (.node (.node .leaf 0xd9
  [0x55, 0x300] .leaf) 0xda [0x55, 0x301] (.node .leaf 0xdb [0x55, 0x302] .leaf))) 0xdc [0x55, 0x308] (.node (.node (.node .leaf 0xdd [0x59, 0x301]
  .leaf) 0xe0 [0x61, 0x300] (.node .leaf 0xe1 [0x61, 0x301] .leaf)) 0xe2 [0x61, 0x302] (.node (.node .leaf 0xe3 [0x61, 0x303] .leaf) 0xe4 [0x61,
  0x308] (.node .leaf 0xe5 [0x61, 0x30a] .leaf))))) 0xe7 [0x63, 0x327] (.node (.node (.node (.node (.node .leaf 0xe8 [0x65, 0x300] .leaf) 0xe9 [0x65,
  0x301] (.node .leaf 0xea [0x65, 0x302] .leaf)) 0xeb [0x65, 0x308] (.node (.node .leaf 0xec [0x69, 0x300] .leaf) 0xed [0x69, 0x301] (.node .leaf 0xee
  [0x69, 0x302] .leaf))) 0xef [0x69, 0x308] (.node (.node (.node .leaf 0xf1 [0x6e, 0x303] .leaf) 0xf2 [0x6f, 0x300] (.node .leaf 0xf3 [0x6f, 0x301]
  .leaf)) 0xf4 [0x6f, 0x302] (.node (.node .leaf 0xf5 [0x6f, 0x303] .leaf) 0xf6 [0x6f, 0x308] (.node .leaf 0xf9 [0x75, 0x300] .leaf)))) 0xfa [0x75,
  0x301] (.node (.node (.node (.node .leaf 0xfb [0x75, 0x302] .leaf) 0xfc [0x75, 0x308] (.node .leaf 0xfd [0x79, 0x301] .leaf)) 0xff [0x79, 0x308]
  (.node (.node .leaf 0x100 [0x41, 0x304] .leaf) 0x101 [0x61, 0x304] (.node .leaf 0x102 [0x41, 0x306] .leaf))) 0x103 [0x61, 0x306] (.node (.node
  (.node .leaf 0x104 [0x41, 0x328] .leaf) 0x105 [0x61, 0x328] (.node .leaf 0x106 [0x43, 0x301] .leaf)) 0x107 [0x63, 0x301] (.node (.node .leaf 0x108
  [0x43, 0x302] .leaf) 0x109 [0x63, 0x302] (.node .leaf 0x10a [0x43, 0x307] .leaf)))))

def decTree_aaaab : Tree (List Nat) :=
  .node (.node (.node (.node (.node (.node .leaf 0x10c [0x43, 0x30c] .leaf) 0x10d [0x63, 0x30c] (.node .leaf 0x10e [0x44, 0x30c] .leaf)) 0x10f [0x64,
  0x30c] (.node (.node .leaf 0x112 [0x45, 0x304] .leaf) 0x113 [0x65, 0x304] (.node .leaf 0x114 [0x45, 0x306] .leaf))) 0x115 [0x65, 0x306] (.node
  (.node (.node .leaf 0x116 [0x45, 0x307] .leaf) 0x117 [0x65, 0x307] (.node .leaf 0x118 [0x45, 0x328] .leaf)) 0x119 [0x65, 0x328] (.node (.node .leaf
  0x11a [0x45, 0x30c] .leaf) 0x11b [0x65, 0x30c] (.node .leaf 0x11c [0x47, 0x302] .leaf)))) 0x11d [0x67, 0x302] (.node (.node (.node (.node .leaf
  0x11e [0x47, 0x306] .leaf) 0x11f [0x67, 0x306] (.node .leaf 0x120 [0x47, 0x307] .leaf)) 0x121 [0x67, 0x307] (.node (.node .leaf 0x122 [0x47, 0x327]
  .leaf) 0x123 [0x67, 0x327] (.node .leaf 0x124 [0x48, 0x302] .leaf))) 0x125 [0x68, 0x302] (.node (.node (.node .leaf 0x128 [0x49, 0x303] .leaf) 0x129
  [0x69, 0x303] (.node .leaf 0x12a [0x49, 0x304] .leaf)) 0x12b [0x69, 0x304] (.node (.node .leaf 0x12c [0x49, 0x306] .leaf) 0x12d [0x69, 0x306] (.node
  .leaf 0x12e [0x49, 0x328] .leaf))))) 0x12f [0x69, 0x328] (.node (.node (.node (.node (.node .leaf 0x130 [0x49, 0x307] .leaf) 0x134 [0x4a, 0x302]
  (.node .leaf 0x135 [0x6a, 0x302] .leaf)) 0x136 [0x4b, 0x327] (.node (.node .leaf 0x137 [0x6b, 0x327] .leaf) 0x139 [0x4c, 0x301] (.node .leaf 0x13a
  [0x6c, 0x301] .leaf))) 0x13b [0x4c, 0x327] (.node (.node (.node .leaf 0x13c [0x6c, 0x327] .leaf) 0x13d [0x4c, 0x30c] (.node .leaf 0x13e [0x6c,
  0x30c] .leaf)) 0x143 [0x4e, 0x301] (.node (.node .leaf 0x144 [0x6e, 0x301] .leaf) 0x145 [0x4e, 0x327] (.node .leaf 0x146 [0x6e, 0x327] .leaf))))
  0x147 [0x4e, 0x30c] (.node (.node (.node (.node .leaf 0x148 [0x6e, 0x30c] .leaf) 0x14c [0x4f, 0x304] (.node .leaf 0x14d [0x6f, 0x304] .leaf)) 0x14e
  [0x4f, 0x306] (.node (.node .leaf 0x14f [0x6f, 0x306] .leaf) 0x150 [0x4f, 0x30b] (.node .leaf 0x151 [0x6f, 0x30b] .leaf))) 0x154 [0x52, 0x301]
  (.node (.node (.node .leaf 0x155 [0x72, 0x301] .leaf) 0x156 [0x52, 0x327] (.node .leaf 0x157 [0x72, 0x327] .leaf)) 0x158 [0x52, 0x30c] (.node (.node
  .leaf 0x159 [0x72, 0x30c] .leaf) 0x15a [0x53, 0x301] (.node .leaf 0x15b [0x73, 0x301] .leaf)))))

def decTree_aaaa : Tree (List Nat) := .node decTree_aaaaa 0x10b [0x63, 0x307] decTree_aaaab

def decTree_aaaba : Tree (List Nat) :=
  .node (.node (.node (.node (.node (.node (.node .leaf 0x15d [0x73, 0x302] .leaf) 0x15e [0x53, 0x327] .leaf) 0x15f [0x73, 0x327] (.node .leaf 0x160
  [0x53, 0x30c] .leaf)) 0x161 [0x73, 0x30c] (.node (.node .leaf 0x162 [0x54, 0x327] .leaf) 0x163 [0x74, 0x327] (.node .leaf 0x164 [0x54, 0x30c]
  .leaf))) 0x165 [0x74, 0x30c] (.node (.node (.node .leaf 0x168 [0x55, 0x303] .leaf) 0x169 [0x75, 0x303] (.node .leaf 0x16a [0x55, 0x304] .leaf))
  0x16b [0x75, 0x304] (.node (.node .leaf 0x16c [0x55, 0x306] .leaf) 0x16d [0x75, 0x306] (.node .leaf 0x16e [0x55, 0x30a] .leaf)))) 0x16f [0x75,
  0x30a] (.node (.node (.node (.node .leaf 0x170 [0x55, 0x30b] .leaf) 0x171 [0x75, 0x30b] (.node .leaf 0x172 [0x55, 0x328] .leaf)) 0x173 [0x75, 0x328]
  (.node (.node .leaf 0x174 [0x57, 0x302] .leaf) 0x175 [0x77, 0x302] (.node .leaf 0x176 [0x59, 0x302] .leaf))) 0x177 [0x79, 0x302] (.node (.node
  (.node .leaf 0x178 [0x59, 0x308] .leaf) 0x179 [0x5a, 0x301] (.node .leaf 0x17a [0x7a, 0x301] .leaf)) 0x17b [0x5a, 0x307] (.node (.node .leaf 0x17c
  [0x7a, 0x307] .leaf) 0x17d [0x5a, 0x30c] (.node .leaf 0x17e [0x7a, 0x30c] .leaf))))) 0x1a0 [0x4f, 0x31b] (.node (.node (.node (.node (.node .leaf
  0x1a1 [0x6f, 0x31b] .leaf) 0x1af [0x55, 0x31b] (.node .leaf 0x1b0 [0x75, 0x31b] .leaf)) 0x1cd [0x41, 0x30c] (.node (.node .leaf 0x1ce [0x61, 0x30c]
  .leaf) 0x1cf [0x49, 0x30c] (.node .leaf 0x1d0 [0x69, 0x30c] .leaf))) 0x1d1 [0x4f, 0x30c] (.node (.node (.node .leaf 0x1d2 [0x6f, 0x30c] .leaf) 0x1d3
  [0x55, 0x30c] (.node .leaf 0x1d4 [0x75, 0x30c] .leaf)) 0x1d5 [0x55, 0x308, 0x304] (.node (.node .leaf 0x1d6 [0x75, 0x308, 0x304] .leaf) 0x1d7 [0x55,
  0x308, 0x301] (.node .leaf 0x1d8 [0x75, 0x308, 0x301] .leaf)))) 0x1d9 [0x55, 0x308, 0x30c] (.node (.node (.node (.node .leaf 0x1da [0x75, 0x308,
  0x30c] .leaf) 0x1db [0x55, 0x308, 0x300] (.node .leaf 0x1dc [0x75, 0x308, 0x300] .leaf)) 0x1de [0x41, 0x308, 0x304] (.node (.node .leaf 0x1df [0x61,
  0x308, 0x304] .leaf) 0x1e0 [0x41, 0x307, 0x304] (.node .leaf 0x1e1 [0x61, 0x307, 0x304] .leaf))) 0x1e2 [0xc6, 0x304] (.node (.node (.node .leaf
  0x1e3 [0xe6, 0x304] .leaf) 0x1e6 [0x47, 0x30c] (.node .leaf 0x1e7 [0x67, 0x30c] .leaf)) 0x1e8 [0x4b, 0x30c] (.node (.node .leaf 0x1e9 [0x6b, 0x30c]
  .leaf) 0x1ea [0x4f, 0x328] (.node .leaf 0x1eb [0x6f, 0x328] .leaf)))))

def decTree_aaabb : Tree (List Nat) :=
  .node (.node (.node (.node (.node (.node .leaf 0x1ed [0x6f, 0x328, 0x304] .leaf) 0x1ee [0x1b7, 0x30c] (.node .leaf 0x1ef [0x292, 0x30c] .leaf))
  0x1f0 [0x6a, 0x30c] (.node (.node .leaf 0x1f4 [0x47, 0x301] .leaf) 0x1f5 [0x67, 0x301] (.node .leaf 0x1f8 [0x4e, 0x300] .leaf))) 0x1f9 [0x6e, 0x300]
  (.node (.node (.node .leaf 0x1fa [0x41, 0x30a, 0x301] .leaf) 0x1fb [0x61, 0x30a, 0x301] (.node .leaf 0x1fc [0xc6, 0x301] .leaf)) 0x1fd [0xe6, 0x301]
  (.node (.node .leaf 0x1fe [0xd8, 0x301] .leaf) 0x1ff [0xf8, 0x301] (.node .leaf 0x200 [0x41, 0x30f] .leaf)))) 0x201 [0x61, 0x30f] (.node (.node
  (.node (.node .leaf 0x202 [0x41, 0x311] .leaf) 0x203 [0x61, 0x311] (.node .leaf 0x204 [0x45, 0x30f] .leaf)) 0x205 [0x65, 0x30f] (.node (.node .leaf
  0x206 [0x45, 0x311] .leaf) 0x207 [0x65, 0x311] (.node .leaf 0x208 [0x49, 0x30f] .leaf))) 0x209 [0x69, 0x30f] (.node (.node (.node .leaf 0x20a [0x49,
  0x311] .leaf) 0x20b [0x69, 0x311] (.node .leaf 0x20c [0x4f, 0x30f] .leaf)) 0x20d [0x6f, 0x30f] (.node (.node .leaf 0x20e [0x4f, 0x311] .leaf) 0x20f
  [0x6f, 0x311] (.node .leaf 0x210 [0x52, 0x30f] .leaf))))) 0x211 [0x72, 0x30f] (.node (.node (.node (.node (.node .leaf 0x212 [0x52, 0x311] .leaf)
  0x213 [0x72, 0x311] (.node .leaf 0x214 [0x55, 0x30f] .leaf)) 0x215 [0x75, 0x30f] (.node (.node .leaf 0x216 [0x55, 0x311] .leaf) 0x217 [0x75, 0x311]
  (.node .leaf 0x218 [0x53, 0x326] .leaf))) 0x219 [0x73, 0x326] (.node (.node (.node .leaf 0x21a [0x54, 0x326] .leaf) 0x21b [0x74, 0x326] (.node .leaf
  0x21e [0x48, 0x30c] .leaf)) 0x21f [0x68, 0x30c] (.node (.node .leaf 0x226 [0x41, 0x307] .leaf) 0x227 [0x61, 0x307] (.node .leaf 0x228 [0x45, 0x327]
  .leaf)))) 0x229 [0x65, 0x327] (.node (.node (.node (.node .leaf 0x22a [0x4f, 0x308, 0x304] .leaf) 0x22b [0x6f, 0x308, 0x304] (.node .leaf 0x22c
  [0x4f, 0x303, 0x304] .leaf)) 0x22d [0x6f, 0x303, 0x304] (.node (.node .leaf 0x22e [0x4f, 0x307] .leaf) 0x22f [0x6f, 0x307] (.node .leaf 0x230 [0x4f,
  0x307, 0x304] .leaf))) 0x231 [0x6f, 0x307, 0x304] (.node (.node (.node .leaf 0x232 [0x59, 0x304] .leaf) 0x233 [0x79, 0x304] (.node .leaf 0x340
  [0x300] .leaf)) 0x341 [0x301] (.node (.node .leaf 0x343 [0x313] .leaf) 0x344 [0x308, 0x301] (.node .leaf 0x374 [0x2b9] .leaf)))))

def decTree_aaab : Tree (List Nat) := .node decTree_aaaba 0x1ec [0x4f, 0x328, 0x304] decTree_aaabb

def decTree_aaa : Tree (List Nat) := .node decTree_aaaa 0x15c [0x53, 0x302] decTree_aaab

def decTree_aabaa : Tree (List Nat) :=
  .node (.node (.node (.node (.node (.node (.node .leaf 0x385 [0xa8, 0x301] .leaf) 0x386 [0x391, 0x301] .leaf) 0x387 [0xb7] (.node .leaf 0x388 [0x395,
  0x301] .leaf)) 0x389 [0x397, 0x301] (.node (.node .leaf 0x38a [0x399, 0x301] .leaf) 0x38c [0x39f, 0x301] (.node .leaf 0x38e [0x3a5, 0x301] .leaf)))
  0x38f [0x3a9, 0x301] (.node (.node (.node .leaf 0x390 [0x3b9, 0x308, 0x301] .leaf) 0x3aa [0x399, 0x308] (.node .leaf 0x3ab [0x3a5, 0x308] .leaf))
  0x3ac [0x3b1, 0x301] (.node (.node .leaf 0x3ad [0x3b5, 0x301] .leaf) 0x3ae [0x3b7, 0x301] (.node .leaf 0x3af [0x3b9, 0x301] .leaf)))) 0x3b0 [0x3c5,
  0x308, 0x301] (.node (.node (.node (.node .leaf 0x3ca [0x3b9, 0x308] .leaf) 0x3cb [0x3c5, 0x308] (.node .leaf 0x3cc [0x3bf, 0x301] .leaf)) 0x3cd
  [0x3c5, 0x301] (.node (.node .leaf 0x3ce [0x3c9, 0x301] .leaf) 0x3d3 [0x3d2, 0x301] (.node .leaf 0x3d4 [0x3d2, 0x308] .leaf))) 0x400 [0x415, 0x300]
  (.node (.node (.node .leaf 0x401 [0x415, 0x308] .leaf) 0x403 [0x413, 0x301] (.node .leaf 0x407 [0x406, 0x308] .leaf)) 0x40c [0x41a, 0x301] (.node
  (.node .leaf 0x40d [0x418, 0x300] .leaf) 0x40e [0x423, 0x306] (.node .leaf 0x419 [0x418, 0x306] .leaf))))) 0x439 [0x438, 0x306] (.node (.node (.node
  (.node (.node .leaf 0x450 [0x435, 0x300] .leaf) 0x451 [0x435, 0x308] (.node .leaf 0x453 [0x433, 0x301] .leaf)) 0x457 [0x456, 0x308] (.node (.node
  .leaf 0x45c [0x43a, 0x301] .leaf) 0x45d [0x438, 0x300] (.node .leaf 0x45e [0x443, 0x306] .leaf))) 0x476 [0x474, 0x30f] (.node (.node (.node .leaf
  0x477 [0x475, 0x30f] .leaf) 0x4c1 [0x416, 0x306] (.node .leaf 0x4c2 [0x436, 0x306] .leaf)) 0x4d0 [0x410, 0x306] (.node (.node .leaf 0x4d1 [0x430,
  0x306] .leaf) 0x4d2 [0x410, 0x308] (.node .leaf 0x4d3 [0x430, 0x308] .leaf)))) 0x4d6 [0x415, 0x306] (.node (.node (.node (.node .leaf 0x4d7 [0x435,
  0x306] .leaf) 0x4da [0x4d8, 0x308] (.node .leaf 0x4db [0x4d9, 0x308] .leaf)) 0x4dc [0x416, 0x308] (.node (.node .leaf 0x4dd [0x436, 0x308] .leaf)
  0x4de [0x417, 0x308] (.node .leaf 0x4df [0x437, 0x308] .leaf))) 0x4e2 [0x418, 0x304] (.node (.node (.node .leaf 0x4e3 [0x438, 0x304] .leaf) 0x4e4
  [0x418, 0x308] (.node .leaf 0x4e5 [0x438, 0x308] .leaf)) 0x4e6 [0x41e, 0x308] (.node (.node .leaf 0x4e7 [0x43e, 0x308] .leaf) 0x4ea [0x4e8, 0x308]
  (.node .leaf 0x4eb [0x4e9, 0x308] .leaf)))))

def decTree_aabab : Tree (List Nat) :=
  .node (.node (.node (.node (.node (.node .leaf 0x4ed [0x44d, 0x308] .leaf) 0x4ee [0x423, 0x304] (.node .leaf 0x4ef [0x443, 0x304] .leaf)) 0x4f0
  [0x423, 0x308] (.node (.node .leaf 0x4f1 [0x443, 0x308] .leaf) 0x4f2 [0x423, 0x30b] (.node .leaf 0x4f3 [0x443, 0x30b] .leaf))) 0x4f4 [0x427, 0x308]
  (.node (.node (.node .leaf 0x4f5 [0x447, 0x308] .leaf) 0x4f8 [0x42b, 0x308] (.node .leaf 0x4f9 [0x44b, 0x308] .leaf)) 0x622 [0x627, 0x653] (.node
  (.node .leaf 0x623 [0x627, 0x654] .leaf) 0x624 [0x648, 0x654] (.node .leaf 0x625 [0x627, 0x655] .leaf)))) 0x626 [0x64a, 0x654] (.node (.node (.node
  (.node .leaf 0x6c0 [0x6d5, 0x654] .leaf) 0x6c2 [0x6c1, 0x654] (.node .leaf 0x6d3 [0x6d2, 0x654] .leaf)) 0x929 [0x928, 0x93c] (.node (.node .leaf
  0x931 [0x930, 0x93c] .leaf) 0x934 [0x933, 0x93c] (.node .leaf 0x958 [0x915, 0x93c] .leaf))) 0x959 [0x916, 0x93c] (.node (.node (.node .leaf 0x95a
  [0x917, 0x93c] .leaf) 0x95b [0x91c, 0x93c] (.node .leaf 0x95c [0x921, 0x93c] .leaf)) 0x95d [0x922, 0x93c] (.node (.node .leaf 0x95e [0x92b, 0x93c]
  .leaf) 0x95f [0x92f, 0x93c] (.node .leaf 0x9cb [0x9c7, 0x9be] .leaf))))) 0x9cc [0x9c7, 0x9d7] (.node (.node (.node (.node (.node .leaf 0x9dc [0x9a1,
  0x9bc] .leaf) 0x9dd [0x9a2, 0x9bc] (.node .leaf 0x9df [0x9af, 0x9bc] .leaf)) 0xa33 [0xa32, 0xa3c] (.node (.node .leaf 0xa36 [0xa38, 0xa3c] .leaf)
  0xa59 [0xa16, 0xa3c] (.node .leaf 0xa5a [0xa17, 0xa3c] .leaf))) 0xa5b [0xa1c, 0xa3c] (.node (.node (.node .leaf 0xa5e [0xa2b, 0xa3c] .leaf) 0xb48
  [0xb47, 0xb56] (.node .leaf 0xb4b [0xb47, 0xb3e] .leaf)) 0xb4c [0xb47, 0xb57] (.node (.node .leaf 0xb5c [0xb21, 0xb3c] .leaf) 0xb5d [0xb22, 0xb3c]
  (.node .leaf 0xb94 [0xb92, 0xbd7] .leaf)))) 0xbca [0xbc6, 0xbbe] (.node (.node (.node (.node .leaf 0xbcb [0xbc7, 0xbbe] .leaf) 0xbcc [0xbc6, 0xbd7]
  (.node .leaf 0xc48 [0xc46, 0xc56] .leaf)) 0xcc0 [0xcbf, 0xcd5] (.node (.node .leaf 0xcc7 [0xcc6, 0xcd5] .leaf) 0xcc8 [0xcc6, 0xcd6] (.node .leaf
  0xcca [0xcc6, 0xcc2] .leaf))) 0xccb [0xcc6, 0xcc2, 0xcd5] (.node (.node (.node .leaf 0xd4a [0xd46, 0xd3e] .leaf) 0xd4b [0xd47, 0xd3e] (.node .leaf
  0xd4c [0xd46, 0xd57] .leaf)) 0xdda [0xdd9, 0xdca] (.node (.node .leaf 0xddc [0xdd9, 0xdcf] .leaf) 0xddd [0xdd9, 0xdcf, 0xdca] (.node .leaf 0xdde
  [0xdd9, 0xddf] .leaf)))))

def decTree_aaba : Tree (List Nat) := .node decTree_aabaa 0x4ec [0x42d, 0x308] decTree_aabab

def decTree_aabba : Tree (List Nat) :=
  .node (.node (.node (.node (.node (.node (.node .leaf 0xf4d [0xf4c, 0xfb7] .leaf) 0xf52 [0xf51, 0xfb7] .leaf) 0xf57 [0xf56, 0xfb7] (.node .leaf
  0xf5c [0xf5b, 0xfb7] .leaf)) 0xf69 [0xf40, 0xfb5] (.node (.node .leaf 0xf73 [0xf71, 0xf72] .leaf) 0xf75 [0xf71, 0xf74] (.node .leaf 0xf76 [0xfb2,
  0xf80] .leaf))) 0xf78 [0xfb3, 0xf80] (.node (.node (.node .leaf 0xf81 [0xf71, 0xf80] .leaf) 0xf93 [0xf92, 0xfb7] (.node .leaf 0xf9d [0xf9c, 0xfb7]
  .leaf)) 0xfa2 [0xfa1, 0xfb7] (.node (.node .leaf 0xfa7 [0xfa6, 0xfb7] .leaf) 0xfac [0xfab, 0xfb7] (.node .leaf 0xfb9 [0xf90, 0xfb5] .leaf)))) 0x1026
  [0x1025, 0x102e] (.node (.node (.node (.node .leaf 0x1b06 [0x1b05, 0x1b35] .leaf) 0x1b08 [0x1b07, 0x1b35] (.node .leaf 0x1b0a [0x1b09, 0x1b35]
  .leaf)) 0x1b0c [0x1b0b, 0x1b35] (.node (.node .leaf 0x1b0e [0x1b0d, 0x1b35] .leaf) 0x1b12 [0x1b11, 0x1b35] (.node .leaf 0x1b3b [0x1b3a, 0x1b35]
  .leaf))) 0x1b3d [0x1b3c, 0x1b35] (.node (.node (.node .leaf 0x1b40 [0x1b3e, 0x1b35] .leaf) 0x1b41 [0x1b3f, 0x1b35] (.node .leaf 0x1b43 [0x1b42,
  0x1b35] .leaf)) 0x1e00 [0x41, 0x325] (.node (.node .leaf 0x1e01 [0x61, 0x325] .leaf) 0x1e02 [0x42, 0x307] (.node .leaf 0x1e03 [0x62, 0x307]
  .leaf))))) 0x1e04 [0x42, 0x323] (.node (.node (.node (.node (.node .leaf 0x1e05 [0x62, 0x323] .leaf) 0x1e06 [0x42, 0x331] (.node .leaf 0x1e07 [0x62,
  0x331] .leaf)) 0x1e08 [0x43, 0x327, 0x301] (.node (.node .leaf 0x1e09 [0x63, 0x327, 0x301] .leaf) 0x1e0a [0x44, 0x307] (.node .leaf 0x1e0b [0x64,
  0x307] .leaf))) 0x1e0c [0x44, 0x323] (.node (.node (.node .leaf 0x1e0d [0x64, 0x323] .leaf) 0x1e0e [0x44, 0x331] (.node .leaf 0x1e0f [0x64, 0x331]
  .leaf)) 0x1e10 [0x44, 0x327] (.node (.node .leaf 0x1e11 [0x64, 0x327] .leaf) 0x1e12 [0x44, 0x32d] (.node .leaf 0x1e13 [0x64, 0x32d] .leaf)))) 0x1e14
  [0x45, 0x304, 0x300] (.node (.node (.node (.node .leaf 0x1e15 [0x65, 0x304, 0x300] .leaf) 0x1e16 [0x45, 0x304, 0x301] (.node .leaf 0x1e17 [0x65,
  0x304, 0x301] .leaf)) 0x1e18 [0x45, 0x32d] (.node (.node .leaf 0x1e19 [0x65, 0x32d] .leaf) 0x1e1a [0x45, 0x330] (.node .leaf 0x1e1b [0x65, 0x330]
  .leaf))) 0x1e1c [0x45, 0x327, 0x306] (.node (.node (.node .leaf 0x1e1d [0x65, 0x327, 0x306] .leaf) 0x1e1e [0x46, 0x307] (.node .leaf 0x1e1f [0x66,
  0x307] .leaf)) 0x1e20 [0x47, 0x304] (.node (.node .leaf 0x1e21 [0x67, 0x304] .leaf) 0x1e22 [0x48, 0x307] (.node .leaf 0x1e23 [0x68, 0x307]
  .leaf)))))

def decTree_aabbb : Tree (List Nat) :=
  .node (.node (.node (.node (.node (.node .leaf 0x1e25 [0x68, 0x323] .leaf) 0x1e26 [0x48, 0x308] (.node .leaf 0x1e27 [0x68, 0x308] .leaf)) 0x1e28
  [0x48, 0x327] (.node (.node .leaf 0x1e29 [0x68, 0x327] .leaf) 0x1e2a [0x48, 0x32e] (.node .leaf 0x1e2b [0x68, 0x32e] .leaf))) 0x1e2c [0x49, 0x330]
  (.node (.node (.node .leaf 0x1e2d [0x69, 0x330] .leaf) 0x1e2e [0x49, 0x308, 0x301] (.node .leaf 0x1e2f [0x69, 0x308, 0x301] .leaf)) 0x1e30 [0x4b,
  0x301] (.node (.node .leaf 0x1e31 [0x6b, 0x301] .leaf) 0x1e32 [0x4b, 0x323] (.node .leaf 0x1e33 [0x6b, 0x323] .leaf)))) 0x1e34 [0x4b, 0x331] (.node
  (.node (.node (.node .leaf 0x1e35 [0x6b, 0x331] .leaf) 0x1e36 [0x4c, 0x323] (.node .leaf 0x1e37 [0x6c, 0x323] .leaf)) 0x1e38 [0x4c, 0x323, 0x304]
  (.node (.node .leaf 0x1e39 [0x6c, 0x323, 0x304] .leaf) 0x1e3a [0x4c, 0x331] (.node .leaf 0x1e3b [0x6c, 0x331] .leaf))) 0x1e3c [0x4c, 0x32d] (.node
  (.node (.node .leaf 0x1e3d [0x6c, 0x32d] .leaf) 0x1e3e [0x4d, 0x301] (.node .leaf 0x1e3f [0x6d, 0x301] .leaf)) 0x1e40 [0x4d, 0x307] (.node (.node
  .leaf 0x1e41 [0x6d, 0x307] .leaf) 0x1e42 [0x4d, 0x323] (.node .leaf 0x1e43 [0x6d, 0x323] .leaf))))) 0x1e44 [0x4e, 0x307] (.node (.node (.node (.node
  (.node .leaf 0x1e45 [0x6e, 0x307] .leaf) 0x1e46 [0x4e, 0x323] (.node .leaf 0x1e47 [0x6e, 0x323] .leaf)) 0x1e48 [0x4e, 0x331] (.node (.node .leaf
  0x1e49 [0x6e, 0x331] .leaf) 0x1e4a [0x4e, 0x32d] (.node .leaf 0x1e4b [0x6e, 0x32d] .leaf))) 0x1e4c [0x4f, 0x303, 0x301] (.node (.node (.node .leaf
  0x1e4d [0x6f, 0x303, 0x301] .leaf) 0x1e4e [0x4f, 0x303, 0x308] (.node .leaf 0x1e4f [0x6f, 0x303, 0x308] .leaf)) 0x1e50 [0x4f, 0x304, 0x300] (.node
  (.node .leaf 0x1e51 [0x6f, 0x304, 0x300] .leaf) 0x1e52 [0x4f, 0x304, 0x301] (.node .leaf 0x1e53 [0x6f, 0x304, 0x301] .leaf)))) 0x1e54 [0x50, 0x301]
  (.node (.node (.node (.node .leaf 0x1e55 [0x70, 0x301] .leaf) 0x1e56 [0x50, 0x307] (.node .leaf 0x1e57 [0x70, 0x307] .leaf)) 0x1e58 [0x52, 0x307]
  (.node (.node .leaf 0x1e59 [0x72, 0x307] .leaf) 0x1e5a [0x52, 0x323] (.node .leaf 0x1e5b [0x72, 0x323] .leaf))) 0x1e5c [0x52, 0x323, 0x304] (.node
  (.node (.node .leaf 0x1e5d [0x72, 0x323, 0x304] .leaf) 0x1e5e [0x52, 0x331] (.node .leaf 0x1e5f [0x72, 0x331] .leaf)) 0x1e60 [0x53, 0x307] (.node
  (.node .leaf 0x1e61 [0x73, 0x307] .leaf) 0x1e62 [0x53, 0x323] (.node .leaf 0x1e63 [0x73, 0x323] .leaf)))))

def decTree_aabb : Tree (List Nat) := .node decTree_aabba 0x1e24 [0x48, 0x323] decTree_aabbb

def decTree_aab : Tree (List Nat) := .node decTree_aaba 0xf43 [0xf42, 0xfb7] decTree_aabb

def decTree_aa : Tree (List Nat) := .node decTree_aaa 0x37e [0x3b] decTree_aab

def decTree_abaaa : Tree (List Nat) :=
  .node (.node (.node (.node (.node (.node (.node .leaf 0x1e65 [0x73, 0x301, 0x307] .leaf) 0x1e66 [0x53, 0x30c, 0x307] .leaf) 0x1e67 [0x73, 0x30c,
  0x307] (.node .leaf 0x1e68 [0x53, 0x323, 0x307] .leaf)) 0x1e69 [0x73, 0x323, 0x307] (.node (.node .leaf 0x1e6a [0x54, 0x307] .leaf) 0x1e6b [0x74,
  0x307] (.node .leaf 0x1e6c [0x54, 0x323] .leaf))) 0x1e6d [0x74, 0x323] (.node (.node (.node .leaf 0x1e6e [0x54, 0x331] .leaf) 0x1e6f [0x74, 0x331]
  (.node .leaf 0x1e70 [0x54, 0x32d] .leaf)) 0x1e71 [0x74, 0x32d] (.node (.node .leaf 0x1e72 [0x55, 0x324] .leaf) 0x1e73 [0x75, 0x324] (.node .leaf
  0x1e74 [0x55, 0x330] .leaf)))) 0x1e75 [0x75, 0x330] (.node (.node (.node (.node .leaf 0x1e76 [0x55, 0x32d] .leaf) 0x1e77 [0x75, 0x32d] (.node .leaf
  0x1e78 [0x55, 0x303, 0x301] .leaf)) 0x1e79 [0x75, 0x303, 0x301] (.node (.node .leaf 0x1e7a [0x55, 0x304, 0x308] .leaf) 0x1e7b [0x75, 0x304, 0x308]
  (.node .leaf 0x1e7c [0x56, 0x303] .leaf))) 0x1e7d [0x76, 0x303] (.node (.node (.node .leaf 0x1e7e [0x56, 0x323] .leaf) 0x1e7f [0x76, 0x323] (.node
  .leaf 0x1e80 [0x57, 0x300] .leaf)) 0x1e81 [0x77, 0x300] (.node (.node .leaf 0x1e82 [0x57, 0x301] .leaf) 0x1e83 [0x77, 0x301] (.node .leaf 0x1e84
  [0x57, 0x308] .leaf))))) 0x1e85 [0x77, 0x308] (.node (.node (.node (.node (.node .leaf 0x1e86 [0x57, 0x307] .leaf) 0x1e87 [0x77, 0x307] (.node .leaf
  0x1e88 [0x57, 0x323] .leaf)) 0x1e89 [0x77, 0x323] (.node (.node .leaf 0x1e8a [0x58, 0x307] .leaf) 0x1e8b [0x78, 0x307] (.node .leaf 0x1e8c [0x58,
  0x308] .leaf))) 0x1e8d [0x78, 0x308] (.node (.node (.node .leaf 0x1e8e [0x59, 0x307] .leaf) 0x1e8f [0x79, 0x307] (.node .leaf 0x1e90 [0x5a, 0x302]
  .leaf)) 0x1e91 [0x7a, 0x302] (.node (.node .leaf 0x1e92 [0x5a, 0x323] .leaf) 0x1e93 [0x7a, 0x323] (.node .leaf 0x1e94 [0x5a, 0x331] .leaf)))) 0x1e95
  [0x7a, 0x331] (.node (.node (.node (.node .leaf 0x1e96 [0x68, 0x331] .leaf) 0x1e97 [0x74, 0x308] (.node .leaf 0x1e98 [0x77, 0x30a] .leaf)) 0x1e99
  [0x79, 0x30a] (.node (.node .leaf 0x1e9b [0x17f, 0x307] .leaf) 0x1ea0 [0x41, 0x323] (.node .leaf 0x1ea1 [0x61, 0x323] .leaf))) 0x1ea2 [0x41, 0x309]
  (.node (.node (.node .leaf 0x1ea3 [0x61, 0x309] .leaf) 0x1ea4 [0x41, 0x302, 0x301] (.node .leaf 0x1ea5 [0x61, 0x302, 0x301] .leaf)) 0x1ea6 [0x41,
  0x302, 0x300] (.node (.node .leaf 0x1ea7 [0x61, 0x302, 0x300] .leaf) 0x1ea8 [0x41, 0x302, 0x309] (.node .leaf 0x1ea9 [0x61, 0x302, 0x309] .leaf)))))

def decTree_abaab : Tree (List Nat) :=
  .node (.node (.node (.node (.node (.node .leaf 0x1eab [0x61, 0x302, 0x303] .leaf) 0x1eac [0x41, 0x323, 0x302] (.node .leaf 0x1ead [0x61, 0x323,
  0x302] .leaf)) 0x1eae [0x41, 0x306, 0x301] (.node (.node .leaf 0x1eaf [0x61, 0x306, 0x301] .leaf) 0x1eb0 [0x41, 0x306, 0x300] (.node .leaf 0x1eb1
  [0x61, 0x306, 0x300] .leaf))) 0x1eb2 [0x41, 0x306, 0x309] (.node (.node (.node .leaf 0x1eb3 [0x61, 0x306, 0x309] .leaf) 0x1eb4 [0x41, 0x306, 0x303]
  (.node .leaf 0x1eb5 [0x61, 0x306, 0x303] .leaf)) 0x1eb6 [0x41, 0x323, 0x306] (.node (.node .leaf 0x1eb7 [0x61, 0x323, 0x306] .leaf) 0x1eb8 [0x45,
  0x323] (.node .leaf 0x1eb9 [0x65, 0x323] .leaf)))) 0x1eba [0x45, 0x309] (.node (.node (.node (.node .leaf 0x1ebb [0x65, 0x309] .leaf) 0x1ebc [0x45,
  0x303] (.node .leaf 0x1ebd [0x65, 0x303] .leaf)) 0x1ebe [0x45, 0x302, 0x301] (.node (.node .leaf 0x1ebf [0x65, 0x302, 0x301] .leaf) 0x1ec0 [0x45,
  0x302, 0x300] (.node .leaf 0x1ec1 [0x65, 0x302, 0x300] .leaf))) 0x1ec2 [0x45, 0x302, 0x309] (.node (.node (.node .leaf 0x1ec3 [0x65, 0x302, 0x309]
  .leaf) 0x1ec4 [0x45, 0x302, 0x303] (.node .leaf 0x1ec5 [0x65, 0x302, 0x303] .leaf)) 0x1ec6 [0x45, 0x323, 0x302] (.node (.node .leaf 0x1ec7 [0x65,
  0x323, 0x302] .leaf) 0x1ec8 [0x49, 0x309] (.node .leaf 0x1ec9 [0x69, 0x309] .leaf))))) 0x1eca [0x49, 0x323] (.node (.node (.node (.node (.node .leaf
  0x1ecb [0x69, 0x323] .leaf) 0x1ecc [0x4f, 0x323] (.node .leaf 0x1ecd [0x6f, 0x323] .leaf)) 0x1ece [0x4f, 0x309] (.node (.node .leaf 0x1ecf [0x6f,
  0x309] .leaf) 0x1ed0 [0x4f, 0x302, 0x301] (.node .leaf 0x1ed1 [0x6f, 0x302, 0x301] .leaf))) 0x1ed2 [0x4f, 0x302, 0x300] (.node (.node (.node .leaf
  0x1ed3 [0x6f, 0x302, 0x300] .leaf) 0x1ed4 [0x4f, 0x302, 0x309] (.node .leaf 0x1ed5 [0x6f, 0x302, 0x309] .leaf)) 0x1ed6 [0x4f, 0x302, 0x303] (.node
  (.node .leaf 0x1ed7 [0x6f, 0x302, 0x303] .leaf) 0x1ed8 [0x4f, 0x323, 0x302] (.node .leaf 0x1ed9 [0x6f, 0x323, 0x302] .leaf)))) 0x1eda [0x4f, 0x31b,
  0x301] (.node (.node (.node (.node .leaf 0x1edb [0x6f, 0x31b, 0x301] .leaf) 0x1edc [0x4f, 0x31b, 0x300] (.node .leaf 0x1edd [0x6f, 0x31b, 0x300]
  .leaf)) 0x1ede [0x4f, 0x31b, 0x309] (.node (.node .leaf 0x1edf [0x6f, 0x31b, 0x309] .leaf) 0x1ee0 [0x4f, 0x31b, 0x303] (.node .leaf 0x1ee1 [0x6f,
  0x31b, 0x303] .leaf))) 0x1ee2 [0x4f, 0x31b, 0x323] (.node (.node (.node .leaf 0x1ee3 [0x6f, 0x31b, 0x323] .leaf) 0x1ee4 [0x55, 0x323] (.node .leaf
  0x1ee5 [0x75, 0x323] .leaf)) 0x1ee6 [0x55, 0x309] (.node (.node .leaf 0x1ee7 [0x75, 0x309] .leaf) 0x1ee8 [0x55, 0x31b, 0x301] (.node .leaf 0x1ee9
  [0x75, 0x31b, 0x301] .leaf)))))

def decTree_abaa : Tree (List Nat) := .node decTree_abaaa 0x1eaa [0x41, 0x302, 0x303] decTree_abaab

def decTree_ababa : Tree (List Nat) :=
  .node (.node (.node (.node (.node (.node (.node .leaf 0x1eeb [0x75, 0x31b, 0x300] .leaf) 0x1eec [0x55, 0x31b, 0x309] .leaf) 0x1eed [0x75, 0x31b,
  0x309] (.node .leaf 0x1eee [0x55, 0x31b, 0x303] .leaf)) 0x1eef [0x75, 0x31b, 0x303] (.node (.node .leaf 0x1ef0 [0x55, 0x31b, 0x323] .leaf) 0x1ef1
  [0x75, 0x31b, 0x323] (.node .leaf 0x1ef2 [0x59, 0x300] .leaf))) 0x1ef3 [0x79, 0x300] (.node (.node (.node .leaf 0x1ef4 [0x59, 0x323] .leaf) 0x1ef5
  [0x79, 0x323] (.node .leaf 0x1ef6 [0x59, 0x309] .leaf)) 0x1ef7 [0x79, 0x309] (.node (.node .leaf 0x1ef8 [0x59, 0x303] .leaf) 0x1ef9 [0x79, 0x303]
  (.node .leaf 0x1f00 [0x3b1, 0x313] .leaf)))) 0x1f01 [0x3b1, 0x314] (.node (.node (.node (.node .leaf 0x1f02 [0x3b1, 0x313, 0x300] .leaf) 0x1f03
  [0x3b1, 0x314, 0x300] (.node .leaf 0x1f04 [0x3b1, 0x313, 0x301] .leaf)) 0x1f05 [0x3b1, 0x314, 0x301] (.node (.node .leaf 0x1f06 [0x3b1, 0x313,
  0x342] .leaf) 0x1f07 [0x3b1, 0x314, 0x342] (.node .leaf 0x1f08 [0x391, 0x313] .leaf))) 0x1f09 [0x391, 0x314] (.node (.node (.node .leaf 0x1f0a
  [0x391, 0x313, 0x300] .leaf) 0x1f0b [0x391, 0x314, 0x300] (.node .leaf 0x1f0c [0x391, 0x313, 0x301] .leaf)) 0x1f0d [0x391, 0x314, 0x301] (.node
  (.node .leaf 0x1f0e [0x391, 0x313, 0x342] .leaf) 0x1f0f [0x391, 0x314, 0x342] (.node .leaf 0x1f10 [0x3b5, 0x313] .leaf))))) 0x1f11 [0x3b5, 0x314]
  (.node (.node (.node (.node (.node .leaf 0x1f12 [0x3b5, 0x313, 0x300] .leaf) 0x1f13 [0x3b5, 0x314, 0x300] (.node .leaf 0x1f14 [0x3b5, 0x313, 0x301]
  .leaf)) 0x1f15 [0x3b5, 0x314, 0x301] (.node (.node .leaf 0x1f18 [0x395, 0x313] .leaf) 0x1f19 [0x395, 0x314] (.node .leaf 0x1f1a [0x395, 0x313,
  0x300] .leaf))) 0x1f1b [0x395, 0x314, 0x300] (.node (.node (.node .leaf 0x1f1c [0x395, 0x313, 0x301] .leaf) 0x1f1d [0x395, 0x314, 0x301] (.node
  .leaf 0x1f20 [0x3b7, 0x313] .leaf)) 0x1f21 [0x3b7, 0x314] (.node (.node .leaf 0x1f22 [0x3b7, 0x313, 0x300] .leaf) 0x1f23 [0x3b7, 0x314, 0x300]
  (.node .leaf 0x1f24 [0x3b7, 0x313, 0x301] .leaf)))) 0x1f25 [0x3b7, 0x314, 0x301] (.node (.node (.node (.node .leaf 0x1f26 [0x3b7, 0x313, 0x342]
  .leaf) 0x1f27 [0x3b7, 0x314, 0x342] (.node .leaf 0x1f28 [0x397, 0x313] .leaf)) 0x1f29 [0x397, 0x314] (.node (.node .leaf 0x1f2a [0x397, 0x313,
  0x300] .leaf) 0x1f2b [0x397, 0x314, 0x300] (.node .leaf 0x1f2c [0x397, 0x313, 0x301] .leaf))) 0x1f2d [0x397, 0x314, 0x301] (.node (.node (.node
  .leaf 0x1f2e [0x397, 0x313, 0x342] .leaf) 0x1f2f [0x397, 0x314, 0x342] (.node .leaf 0x1f30 [0x3b9, 0x313] .leaf)) 0x1f31 [0x3b9, 0x314] (.node
  (.node .leaf 0x1f32 [0x3b9, 0x313, 0x300] .leaf) 0x1f33 [0x3b9, 0x314, 0x300] (.node .leaf 0x1f34 [0x3b9, 0x313, 0x301] .leaf)))))

def decTree_ababb : Tree (List Nat) :=
  .node (.node (.node (.node (.node (.node .leaf 0x1f36 [0x3b9, 0x313, 0x342] .leaf) 0x1f37 [0x3b9, 0x314, 0x342] (.node .leaf 0x1f38 [0x399, 0x313]
  .leaf)) 0x1f39 [0x399, 0x314] (.node (.node .leaf 0x1f3a [0x399, 0x313, 0x300] .leaf) 0x1f3b [0x399, 0x314, 0x300] (.node .leaf 0x1f3c [0x399,
  0x313, 0x301] .leaf))) 0x1f3d [0x399, 0x314, 0x301] (.node (.node (.node .leaf 0x1f3e [0x399, 0x313, 0x342] .leaf) 0x1f3f [0x399, 0x314, 0x342]
  (.node .leaf 0x1f40 [0x3bf, 0x313] .leaf)) 0x1f41 [0x3bf, 0x314] (.node (.node .leaf 0x1f42 [0x3bf, 0x313, 0x300] .leaf) 0x1f43 [0x3bf, 0x314,
  0x300] (.node .leaf 0x1f44 [0x3bf, 0x313, 0x301] .leaf)))) 0x1f45 [0x3bf, 0x314, 0x301] (.node (.node (.node (.node .leaf 0x1f48 [0x39f, 0x313]
  .leaf) 0x1f49 [0x39f, 0x314] (.node .leaf 0x1f4a [0x39f, 0x313, 0x300] .leaf)) 0x1f4b [0x39f, 0x314, 0x300] (.node (.node .leaf 0x1f4c [0x39f,
  0x313, 0x301] .leaf) 0x1f4d [0x39f, 0x314, 0x301] (.node .leaf 0x1f50 [0x3c5, 0x313] .leaf))) 0x1f51 [0x3c5, 0x314] (.node (.node (.node .leaf
  0x1f52 [0x3c5, 0x313, 0x300] .leaf) 0x1f53 [0x3c5, 0x314, 0x300] (.node .leaf 0x1f54 [0x3c5, 0x313, 0x301] .leaf)) 0x1f55 [0x3c5, 0x314, 0x301]
  (.node (.node .leaf 0x1f56 [0x3c5, 0x313, 0x342] .leaf) 0x1f57 [0x3c5, 0x314, 0x342] (.node .leaf 0x1f59 [0x3a5, 0x314] .leaf))))) 0x1f5b [0x3a5,
  0x314, 0x300] (.node (.node (.node (.node (.node .leaf 0x1f5d [0x3a5, 0x314, 0x301] .leaf) 0x1f5f [0x3a5, 0x314, 0x342] (.node .leaf 0x1f60 [0x3c9,
  0x313] .leaf)) 0x1f61 [0x3c9, 0x314] (.node (.node .leaf 0x1f62 [0x3c9, 0x313, 0x300] .leaf) 0x1f63 [0x3c9, 0x314, 0x300] (.node .leaf 0x1f64
  [0x3c9, 0x313, 0x301] .leaf))) 0x1f65 [0x3c9, 0x314, 0x301] (.node (.node (.node .leaf 0x1f66 [0x3c9, 0x313, 0x342] .leaf) 0x1f67 [0x3c9, 0x314,
  0x342] (.node .leaf 0x1f68 [0x3a9, 0x313] .leaf)) 0x1f69 [0x3a9, 0x314] (.node (.node .leaf 0x1f6a [0x3a9, 0x313, 0x300] .leaf) 0x1f6b [0x3a9,
  0x314, 0x300] (.node .leaf 0x1f6c [0x3a9, 0x313, 0x301] .leaf)))) 0x1f6d [0x3a9, 0x314, 0x301] (.node (.node (.node (.node .leaf 0x1f6e [0x3a9,
  0x313, 0x342] .leaf) 0x1f6f [0x3a9, 0x314, 0x342] (.node .leaf 0x1f70 [0x3b1, 0x300] .leaf)) 0x1f71 [0x3b1, 0x301] (.node (.node .leaf 0x1f72
  [0x3b5, 0x300] .leaf) 0x1f73 [0x3b5, 0x301] (.node .leaf 0x1f74 [0x3b7, 0x300] .leaf))) 0x1f75 [0x3b7, 0x301] (.node (.node (.node .leaf 0x1f76
  [0x3b9, 0x300] .leaf) 0x1f77 [0x3b9, 0x301] (.node .leaf 0x1f78 [0x3bf, 0x300] .leaf)) 0x1f79 [0x3bf, 0x301] (.node (.node .leaf 0x1f7a [0x3c5,
  0x300] .leaf) 0x1f7b [0x3c5, 0x301] (.node .leaf 0x1f7c [0x3c9, 0x300] .leaf)))))

def decTree_abab : Tree (List Nat) := .node decTree_ababa 0x1f35 [0x3b9, 0x314, 0x301] decTree_ababb

def decTree_aba : Tree (List Nat) := .node decTree_abaa 0x1eea [0x55, 0x31b, 0x300] decTree_abab

def decTree_abbaa : Tree (List Nat) :=
  .node (.node (.node (.node (.node (.node (.node .leaf 0x1f80 [0x3b1, 0x313, 0x345] .leaf) 0x1f81 [0x3b1, 0x314, 0x345] .leaf) 0x1f82 [0x3b1, 0x313,
  0x300, 0x345] (.node .leaf 0x1f83 [0x3b1, 0x314, 0x300, 0x345] .leaf)) 0x1f84 [0x3b1, 0x313, 0x301, 0x345] (.node (.node .leaf 0x1f85 [0x3b1, 0x314,
  0x301, 0x345] .leaf) 0x1f86 [0x3b1, 0x313, 0x342, 0x345] (.node .leaf 0x1f87 [0x3b1, 0x314, 0x342, 0x345] .leaf))) 0x1f88 [0x391, 0x313, 0x345]
  (.node (.node (.node .leaf 0x1f89 [0x391, 0x314, 0x345] .leaf) 0x1f8a [0x391, 0x313, 0x300, 0x345] (.node .leaf 0x1f8b [0x391, 0x314, 0x300, 0x345]
  .leaf)) 0x1f8c [0x391, 0x313, 0x301, 0x345] (.node (.node .leaf 0x1f8d [0x391, 0x314, 0x301, 0x345] .leaf) 0x1f8e [0x391, 0x313, 0x342, 0x345]
  (.node .leaf 0x1f8f [0x391, 0x314, 0x342, 0x345] .leaf)))) 0x1f90 [0x3b7, 0x313, 0x345] (.node (.node (.node (.node .leaf 0x1f91 [0x3b7, 0x314,
  0x345] .leaf) 0x1f92 [0x3b7, 0x313, 0x300, 0x345] (.node .leaf 0x1f93 [0x3b7, 0x314, 0x300, 0x345] .leaf)) 0x1f94 [0x3b7, 0x313, 0x301, 0x345]
  (.node (.node .leaf 0x1f95 [0x3b7, 0x314, 0x301, 0x345] .leaf) 0x1f96 [0x3b7, 0x313, 0x342, 0x345] (.node .leaf 0x1f97 [0x3b7, 0x314, 0x342, 0x345]
  .leaf))) 0x1f98 [0x397, 0x313, 0x345] (.node (.node (.node .leaf 0x1f99 [0x397, 0x314, 0x345] .leaf) 0x1f9a [0x397, 0x313, 0x300, 0x345] (.node
  .leaf 0x1f9b [0x397, 0x314, 0x300, 0x345] .leaf)) 0x1f9c [0x397, 0x313, 0x301, 0x345] (.node (.node .leaf 0x1f9d [0x397, 0x314, 0x301, 0x345] .leaf)
  0x1f9e [0x397, 0x313, 0x342, 0x345] (.node .leaf 0x1f9f [0x397, 0x314, 0x342, 0x345] .leaf))))) 0x1fa0 [0x3c9, 0x313, 0x345] (.node (.node (.node
  (.node (.node .leaf 0x1fa1 [0x3c9, 0x314, 0x345] .leaf) 0x1fa2 [0x3c9, 0x313, 0x300, 0x345] (.node .leaf 0x1fa3 [0x3c9, 0x314, 0x300, 0x345] .leaf))
  0x1fa4 [0x3c9, 0x313, 0x301, 0x345] (.node (.node .leaf 0x1fa5 [0x3c9, 0x314, 0x301, 0x345] .leaf) 0x1fa6 [0x3c9, 0x313, 0x342, 0x345] (.node .leaf
  0x1fa7 [0x3c9, 0x314, 0x342, 0x345] .leaf))) 0x1fa8 [0x3a9, 0x313, 0x345] (.node (.node (.node .leaf 0x1fa9 [0x3a9, 0x314, 0x345] .leaf) 0x1faa
  [0x3a9, 0x313, 0x300, 0x345] (.node .leaf 0x1fab [0x3a9, 0x314, 0x300, 0x345] .leaf)) 0x1fac [0x3a9, 0x313, 0x301, 0x345] (.node (.node .leaf 0x1fad
  [0x3a9, 0x314, 0x301, 0x345] .leaf) 0x1fae [0x3a9, 0x313, 0x342, 0x345] (.node .leaf 0x1faf [0x3a9, 0x314, 0x342, 0x345] .leaf)))) 0x1fb0 [0x3b1,
  0x306] (.node (.node (.node (.node .leaf 0x1fb1 [0x3b1, 0x304] .leaf) 0x1fb2 [0x3b1, 0x300, 0x345] (.node .leaf 0x1fb3 [0x3b1, 0x345] .leaf)) 0x1fb4
  [0x3b1, 0x301, 0x345] (.node (.node .leaf 0x1fb6 [0x3b1, 0x342] .leaf) 0x1fb7 [0x3b1, 0x342, 0x345] (.node .leaf 0x1fb8 [0x391, 0x306] .leaf)))
  0x1fb9 [0x391, 0x304] (.node (.node (.node .leaf 0x1fba [0x391, 0x300] .leaf) 0x1fbb [0x391, 0x301] (.node .leaf 0x1fbc [0x391, 0x345] .leaf))
  0x1fbe [0x3b9] (.node (.node .leaf 0x1fc1 [0xa8, 0x342] .leaf) 0x1fc2 [0x3b7, 0x300, 0x345] (.node .leaf 0x1fc3 [0x3b7, 0x345] .leaf)))))

def decTree_abbab : Tree (List Nat) :=
  .node (.node (.node (.node (.node (.node .leaf 0x1fc6 [0x3b7, 0x342] .leaf) 0x1fc7 [0x3b7, 0x342, 0x345] (.node .leaf 0x1fc8 [0x395, 0x300] .leaf))
  0x1fc9 [0x395, 0x301] (.node (.node .leaf 0x1fca [0x397, 0x300] .leaf) 0x1fcb [0x397, 0x301] (.node .leaf 0x1fcc [0x397, 0x345] .leaf))) 0x1fcd
  [0x1fbf, 0x300] (.node (.node (.node .leaf 0x1fce [0x1fbf, 0x301] .leaf) 0x1fcf [0x1fbf, 0x342] (.node .leaf 0x1fd0 [0x3b9, 0x306] .leaf)) 0x1fd1
  [0x3b9, 0x304] (.node (.node .leaf 0x1fd2 [0x3b9, 0x308, 0x300] .leaf) 0x1fd3 [0x3b9, 0x308, 0x301] (.node .leaf 0x1fd6 [0x3b9, 0x342] .leaf))))
  0x1fd7 [0x3b9, 0x308, 0x342] (.node (.node (.node (.node .leaf 0x1fd8 [0x399, 0x306] .leaf) 0x1fd9 [0x399, 0x304] (.node .leaf 0x1fda [0x399, 0x300]
  .leaf)) 0x1fdb [0x399, 0x301] (.node (.node .leaf 0x1fdd [0x1ffe, 0x300] .leaf) 0x1fde [0x1ffe, 0x301] (.node .leaf 0x1fdf [0x1ffe, 0x342] .leaf)))
  0x1fe0 [0x3c5, 0x306] (.node (.node (.node .leaf 0x1fe1 [0x3c5, 0x304] .leaf) 0x1fe2 [0x3c5, 0x308, 0x300] (.node .leaf 0x1fe3 [0x3c5, 0x308, 0x301]
  .leaf)) 0x1fe4 [0x3c1, 0x313] (.node (.node .leaf 0x1fe5 [0x3c1, 0x314] .leaf) 0x1fe6 [0x3c5, 0x342] (.node .leaf 0x1fe7 [0x3c5, 0x308, 0x342]
  .leaf))))) 0x1fe8 [0x3a5, 0x306] (.node (.node (.node (.node (.node .leaf 0x1fe9 [0x3a5, 0x304] .leaf) 0x1fea [0x3a5, 0x300] (.node .leaf 0x1feb
  [0x3a5, 0x301] .leaf)) 0x1fec [0x3a1, 0x314] (.node (.node .leaf 0x1fed [0xa8, 0x300] .leaf) 0x1fee [0xa8, 0x301] (.node .leaf 0x1fef [0x60]
  .leaf))) 0x1ff2 [0x3c9, 0x300, 0x345] (.node (.node (.node .leaf 0x1ff3 [0x3c9, 0x345] .leaf) 0x1ff4 [0x3c9, 0x301, 0x345] (.node .leaf 0x1ff6
  [0x3c9, 0x342] .leaf)) 0x1ff7 [0x3c9, 0x342, 0x345] (.node (.node .leaf 0x1ff8 [0x39f, 0x300] .leaf) 0x1ff9 [0x39f, 0x301] (.node .leaf 0x1ffa
  [0x3a9, 0x300] .leaf)))) 0x1ffb [0x3a9, 0x301] (.node (.node (.node (.node .leaf 0x1ffc [0x3a9, 0x345] .leaf) 0x1ffd [0xb4] (.node .leaf 0x2000
  [0x2002] .leaf)) 0x2001 [0x2003] (.node (.node .leaf 0x2126 [0x3a9] .leaf) 0x212a [0x4b] (.node .leaf 0x212b [0x41, 0x30a] .leaf))) 0x219a [0x2190,
  0x338] (.node (.node (.node .leaf 0x219b [0x2192, 0x338] .leaf) 0x21ae [0x2194, 0x338] (.node .leaf 0x21cd [0x21d0, 0x338] .leaf)) 0x21ce [0x21d4,
  0x338] (.node (.node .leaf 0x21cf [0x21d2, 0x338] .leaf) 0x2204 [0x2203, 0x338] (.node .leaf 0x2209 [0x2208, 0x338] .leaf)))))

def decTree_abba : Tree (List Nat) := .node decTree_abbaa 0x1fc4 [0x3b7, 0x301, 0x345] decTree_abbab

def decTree_abbba : Tree (List Nat) :=
  .node (.node (.node (.node (.node (.node .leaf 0x2224 [0x2223, 0x338] .leaf) 0x2226 [0x2225, 0x338] (.node .leaf 0x2241 [0x223c, 0x338] .leaf))
  0x2244 [0x2243, 0x338] (.node (.node .leaf 0x2247 [0x2245, 0x338] .leaf) 0x2249 [0x2248, 0x338] (.node .leaf 0x2260 [0x3d, 0x338] .leaf))) 0x2262
  [0x2261, 0x338] (.node (.node (.node .leaf 0x226d [0x224d, 0x338] .leaf) 0x226e [0x3c, 0x338] (.node .leaf 0x226f [0x3e, 0x338] .leaf)) 0x2270
  [0x2264, 0x338] (.node (.node .leaf 0x2271 [0x2265, 0x338] .leaf) 0x2274 [0x2272, 0x338] (.node .leaf 0x2275 [0x2273, 0x338] .leaf)))) 0x2278
  [0x2276, 0x338] (.node (.node (.node (.node .leaf 0x2279 [0x2277, 0x338] .leaf) 0x2280 [0x227a, 0x338] (.node .leaf 0x2281 [0x227b, 0x338] .leaf))
  0x2284 [0x2282, 0x338] (.node (.node .leaf 0x2285 [0x2283, 0x338] .leaf) 0x2288 [0x2286, 0x338] (.node .leaf 0x2289 [0x2287, 0x338] .leaf))) 0x22ac
  [0x22a2, 0x338] (.node (.node (.node .leaf 0x22ad [0x22a8, 0x338] .leaf) 0x22ae [0x22a9, 0x338] (.node .leaf 0x22af [0x22ab, 0x338] .leaf)) 0x22e0
  [0x227c, 0x338] (.node (.node .leaf 0x22e1 [0x227d, 0x338] .leaf) 0x22e2 [0x2291, 0x338] (.node .leaf 0x22e3 [0x2292, 0x338] .leaf))))) 0x22ea
  [0x22b2, 0x338] (.node (.node (.node (.node (.node .leaf 0x22eb [0x22b3, 0x338] .leaf) 0x22ec [0x22b4, 0x338] (.node .leaf 0x22ed [0x22b5, 0x338]
  .leaf)) 0x2329 [0x3008] (.node (.node .leaf 0x232a [0x3009] .leaf) 0x2adc [0x2add, 0x338] (.node .leaf 0x304c [0x304b, 0x3099] .leaf))) 0x304e
  [0x304d, 0x3099] (.node (.node (.node .leaf 0x3050 [0x304f, 0x3099] .leaf) 0x3052 [0x3051, 0x3099] (.node .leaf 0x3054 [0x3053, 0x3099] .leaf))
  0x3056 [0x3055, 0x3099] (.node (.node .leaf 0x3058 [0x3057, 0x3099] .leaf) 0x305a [0x3059, 0x3099] (.node .leaf 0x305c [0x305b, 0x3099] .leaf))))
  0x305e [0x305d, 0x3099] (.node (.node (.node (.node .leaf 0x3060 [0x305f, 0x3099] .leaf) 0x3062 [0x3061, 0x3099] (.node .leaf 0x3065 [0x3064,
  0x3099] .leaf)) 0x3067 [0x3066, 0x3099] (.node (.node .leaf 0x3069 [0x3068, 0x3099] .leaf) 0x3070 [0x306f, 0x3099] (.node .leaf 0x3071 [0x306f,
  0x309a] .leaf))) 0x3073 [0x3072, 0x3099] (.node (.node (.node .leaf 0x3074 [0x3072, 0x309a] .leaf) 0x3076 [0x3075, 0x3099] (.node .leaf 0x3077
  [0x3075, 0x309a] .leaf)) 0x3079 [0x3078, 0x3099] (.node (.node .leaf 0x307a [0x3078, 0x309a] .leaf) 0x307c [0x307b, 0x3099] (.node .leaf 0x307d
  [0x307b, 0x309a] .leaf)))))

def decTree_abbbb : Tree (List Nat) :=
  .node (.node (.node (.node (.node (.node .leaf 0x309e [0x309d, 0x3099] .leaf) 0x30ac [0x30ab, 0x3099] (.node .leaf 0x30ae [0x30ad, 0x3099] .leaf))
  0x30b0 [0x30af, 0x3099] (.node (.node .leaf 0x30b2 [0x30b1, 0x3099] .leaf) 0x30b4 [0x30b3, 0x3099] (.node .leaf 0x30b6 [0x30b5, 0x3099] .leaf)))
  0x30b8 [0x30b7, 0x3099] (.node (.node (.node .leaf 0x30ba [0x30b9, 0x3099] .leaf) 0x30bc [0x30bb, 0x3099] (.node .leaf 0x30be [0x30bd, 0x3099]
  .leaf)) 0x30c0 [0x30bf, 0x3099] (.node (.node .leaf 0x30c2 [0x30c1, 0x3099] .leaf) 0x30c5 [0x30c4, 0x3099] (.node .leaf 0x30c7 [0x30c6, 0x3099]
  .leaf)))) 0x30c9 [0x30c8, 0x3099] (.node (.node (.node (.node .leaf 0x30d0 [0x30cf, 0x3099] .leaf) 0x30d1 [0x30cf, 0x309a] (.node .leaf 0x30d3
  [0x30d2, 0x3099] .leaf)) 0x30d4 [0x30d2, 0x309a] (.node (.node .leaf 0x30d6 [0x30d5, 0x3099] .leaf) 0x30d7 [0x30d5, 0x309a] (.node .leaf 0x30d9
  [0x30d8, 0x3099] .leaf))) 0x30da [0x30d8, 0x309a] (.node (.node (.node .leaf 0x30dc [0x30db, 0x3099] .leaf) 0x30dd [0x30db, 0x309a] (.node .leaf
  0x30f4 [0x30a6, 0x3099] .leaf)) 0x30f7 [0x30ef, 0x3099] (.node (.node .leaf 0x30f8 [0x30f0, 0x3099] .leaf) 0x30f9 [0x30f1, 0x3099] (.node .leaf
  0x30fa [0x30f2, 0x3099] .leaf))))) 0x30fe [0x30fd, 0x3099] (.node (.node (.node (.node (.node .leaf 0xf900 [0x8c48] .leaf) 0xf901 [0x66f4] (.node
  .leaf 0xf902 [0x8eca] .leaf)) 0xf903 [0x8cc8] (.node (.node .leaf 0xf904 [0x6ed1] .leaf) 0xf905 [0x4e32] (.node .leaf 0xf906 [0x53e5] .leaf)))
  0xf907 [0x9f9c] (.node (.node (.node .leaf 0xf908 [0x9f9c] .leaf) 0xf909 [0x5951] (.node .leaf 0xf90a [0x91d1] .leaf)) 0xf90b [0x5587] (.node (.node
  .leaf 0xf90c [0x5948] .leaf) 0xf90d [0x61f6] (.node .leaf 0xf90e [0x7669] .leaf)))) 0xf90f [0x7f85] (.node (.node (.node (.node .leaf 0xf910
  [0x863f] .leaf) 0xf911 [0x87ba] (.node .leaf 0xf912 [0x88f8] .leaf)) 0xf913 [0x908f] (.node (.node .leaf 0xf914 [0x6a02] .leaf) 0xf915 [0x6d1b]
  (.node .leaf 0xf916 [0x70d9] .leaf))) 0xf917 [0x73de] (.node (.node (.node .leaf 0xf918 [0x843d] .leaf) 0xf919 [0x916a] (.node .leaf 0xf91a [0x99f1]
  .leaf)) 0xf91b [0x4e82] (.node (.node .leaf 0xf91c [0x5375] .leaf) 0xf91d [0x6b04] (.node .leaf 0xf91e [0x721b] .leaf)))))

def decTree_abbb : Tree (List Nat) := .node decTree_abbba 0x3094 [0x3046, 0x3099] decTree_abbbb

def decTree_abb : Tree (List Nat) := .node decTree_abba 0x220c [0x220b, 0x338] decTree_abbb

def decTree_ab : Tree (List Nat) := .node decTree_aba 0x1f7d [0x3c9, 0x301] decTree_abb

def decTree_a : Tree (List Nat) := .node decTree_aa 0x1e64 [0x53, 0x301, 0x307] decTree_ab

def decTree_baaaa : Tree (List Nat) :=
  .node (.node (.node (.node (.node (.node (.node .leaf 0xf920 [0x9e1e] .leaf) 0xf921 [0x5d50] .leaf) 0xf922 [0x6feb] (.node .leaf 0xf923 [0x85cd]
  .leaf)) 0xf924 [0x8964] (.node (.node .leaf 0xf925 [0x62c9] .leaf) 0xf926 [0x81d8] (.node .leaf 0xf927 [0x881f] .leaf))) 0xf928 [0x5eca] (.node
  (.node (.node .leaf 0xf929 [0x6717] .leaf) 0xf92a [0x6d6a] (.node .leaf 0xf92b [0x72fc] .leaf)) 0xf92c [0x90ce] (.node (.node .leaf 0xf92d [0x4f86]
  .leaf) 0xf92e [0x51b7] (.node .leaf 0xf92f [0x52de] .leaf)))) 0xf930 [0x64c4] (.node (.node (.node (.node .leaf 0xf931 [0x6ad3] .leaf) 0xf932
  [0x7210] (.node .leaf 0xf933 [0x76e7] .leaf)) 0xf934 [0x8001] (.node (.node .leaf 0xf935 [0x8606] .leaf) 0xf936 [0x865c] (.node .leaf 0xf937
  [0x8def] .leaf))) 0xf938 [0x9732] (.node (.node (.node .leaf 0xf939 [0x9b6f] .leaf) 0xf93a [0x9dfa] (.node .leaf 0xf93b [0x788c] .leaf)) 0xf93c
  [0x797f] (.node (.node .leaf 0xf93d [0x7da0] .leaf) 0xf93e [0x83c9] (.node .leaf 0xf93f [0x9304] .leaf))))) 0xf940 [0x9e7f] (.node (.node (.node
  (.node (.node .leaf 0xf941 [0x8ad6] .leaf) 0xf942 [0x58df] (.node .leaf 0xf943 [0x5f04] .leaf)) 0xf944 [0x7c60] (.node (.node .leaf 0xf945 [0x807e]
  .leaf) 0xf946 [0x7262] (.node .leaf 0xf947 [0x78ca] .leaf))) 0xf948 [0x8cc2] (.node (.node (.node .leaf 0xf949 [0x96f7] .leaf) 0xf94a [0x58d8]
  (.node .leaf 0xf94b [0x5c62] .leaf)) 0xf94c [0x6a13] (.node (.node .leaf 0xf94d [0x6dda] .leaf) 0xf94e [0x6f0f] (.node .leaf 0xf94f [0x7d2f]
  .leaf)))) 0xf950 [0x7e37] (.node (.node (.node (.node .leaf 0xf951 [0x964b] .leaf) 0xf952 [0x52d2] (.node .leaf 0xf953 [0x808b] .leaf)) 0xf954
  [0x51dc] (.node (.node .leaf 0xf955 [0x51cc] .leaf) 0xf956 [0x7a1c] (.node .leaf 0xf957 [0x7dbe] .leaf))) 0xf958 [0x83f1] (.node (.node (.node .leaf
  0xf959 [0x9675] .leaf) 0xf95a [0x8b80] (.node .leaf 0xf95b [0x62cf] .leaf)) 0xf95c [0x6a02] (.node (.node .leaf 0xf95d [0x8afe] .leaf) 0xf95e
  [0x4e39] (.node .leaf 0xf95f [0x5be7] .leaf)))))

def decTree_baaab : Tree (List Nat) :=
  .node (.node (.node (.node (.node (.node .leaf 0xf961 [0x7387] .leaf) 0xf962 [0x7570] (.node .leaf 0xf963 [0x5317] .leaf)) 0xf964 [0x78fb] (.node
  (.node .leaf 0xf965 [0x4fbf] .leaf) 0xf966 [0x5fa9] (.node .leaf 0xf967 [0x4e0d] .leaf))) 0xf968 [0x6ccc] (.node (.node (.node .leaf 0xf969 [0x6578]
  .leaf) 0xf96a [0x7d22] (.node .leaf 0xf96b [0x53c3] .leaf)) 0xf96c [0x585e] (.node (.node .leaf 0xf96d [0x7701] .leaf) 0xf96e [0x8449] (.node .leaf
  0xf96f [0x8aaa] .leaf)))) 0xf970 [0x6bba] (.node (.node (.node (.node .leaf 0xf971 [0x8fb0] .leaf) 0xf972 [0x6c88] (.node .leaf 0xf973 [0x62fe]
  .leaf)) 0xf974 [0x82e5] (.node (.node .leaf 0xf975 [0x63a0] .leaf) 0xf976 [0x7565] (.node .leaf 0xf977 [0x4eae] .leaf))) 0xf978 [0x5169] (.node
  (.node (.node .leaf 0xf979 [0x51c9] .leaf) 0xf97a [0x6881] (.node .leaf 0xf97b [0x7ce7] .leaf)) 0xf97c [0x826f] (.node (.node .leaf 0xf97d [0x8ad2]
  .leaf) 0xf97e [0x91cf] (.node .leaf 0xf97f [0x52f5] .leaf))))) 0xf980 [0x5442] (.node (.node (.node (.node (.node .leaf 0xf981 [0x5973] .leaf)
  0xf982 [0x5eec] (.node .leaf 0xf983 [0x65c5] .leaf)) 0xf984 [0x6ffe] (.node (.node .leaf 0xf985 [0x792a] .leaf) 0xf986 [0x95ad] (.node .leaf 0xf987
  [0x9a6a] .leaf))) 0xf988 [0x9e97] (.node (.node (.node .leaf 0xf989 [0x9ece] .leaf) 0xf98a [0x529b] (.node .leaf 0xf98b [0x66c6] .leaf)) 0xf98c
  [0x6b77] (.node (.node .leaf 0xf98d [0x8f62] .leaf) 0xf98e [0x5e74] (.node .leaf 0xf98f [0x6190] .leaf)))) 0xf990 [0x6200] (.node (.node (.node
  (.node .leaf 0xf991 [0x649a] .leaf) 0xf992 [0x6f23] (.node .leaf 0xf993 [0x7149] .leaf)) 0xf994 [0x7489] (.node (.node .leaf 0xf995 [0x79ca] .leaf)
  0xf996 [0x7df4] (.node .leaf 0xf997 [0x806f] .leaf))) 0xf998 [0x8f26] (.node (.node (.node .leaf 0xf999 [0x84ee] .leaf) 0xf99a [0x9023] (.node .leaf
  0xf99b [0x934a] .leaf)) 0xf99c [0x5217] (.node (.node .leaf 0xf99d [0x52a3] .leaf) 0xf99e [0x54bd] (.node .leaf 0xf99f [0x70c8] .leaf)))))

def decTree_baaa : Tree (List Nat) := .node decTree_baaaa 0xf960 [0x6012] decTree_baaab

def decTree_baaba : Tree (List Nat) :=
  .node (.node (.node (.node (.node (.node (.node .leaf 0xf9a1 [0x8aaa] .leaf) 0xf9a2 [0x5ec9] .leaf) 0xf9a3 [0x5ff5] (.node .leaf 0xf9a4 [0x637b]
  .leaf)) 0xf9a5 [0x6bae] (.node (.node .leaf 0xf9a6 [0x7c3e] .leaf) 0xf9a7 [0x7375] (.node .leaf 0xf9a8 [0x4ee4] .leaf))) 0xf9a9 [0x56f9] (.node
  (.node (.node .leaf 0xf9aa [0x5be7] .leaf) 0xf9ab [0x5dba] (.node .leaf 0xf9ac [0x601c] .leaf)) 0xf9ad [0x73b2] (.node (.node .leaf 0xf9ae [0x7469]
  .leaf) 0xf9af [0x7f9a] (.node .leaf 0xf9b0 [0x8046] .leaf)))) 0xf9b1 [0x9234] (.node (.node (.node (.node .leaf 0xf9b2 [0x96f6] .leaf) 0xf9b3
  [0x9748] (.node .leaf 0xf9b4 [0x9818] .leaf)) 0xf9b5 [0x4f8b] (.node (.node .leaf 0xf9b6 [0x79ae] .leaf) 0xf9b7 [0x91b4] (.node .leaf 0xf9b8
  [0x96b8] .leaf))) 0xf9b9 [0x60e1] (.node (.node (.node .leaf 0xf9ba [0x4e86] .leaf) 0xf9bb [0x50da] (.node .leaf 0xf9bc [0x5bee] .leaf)) 0xf9bd
  [0x5c3f] (.node (.node .leaf 0xf9be [0x6599] .leaf) 0xf9bf [0x6a02] (.node .leaf 0xf9c0 [0x71ce] .leaf))))) 0xf9c1 [0x7642] (.node (.node (.node
  (.node (.node .leaf 0xf9c2 [0x84fc] .leaf) 0xf9c3 [0x907c] (.node .leaf 0xf9c4 [0x9f8d] .leaf)) 0xf9c5 [0x6688] (.node (.node .leaf 0xf9c6 [0x962e]
  .leaf) 0xf9c7 [0x5289] (.node .leaf 0xf9c8 [0x677b] .leaf))) 0xf9c9 [0x67f3] (.node (.node (.node .leaf 0xf9ca [0x6d41] .leaf) 0xf9cb [0x6e9c]
  (.node .leaf 0xf9cc [0x7409] .leaf)) 0xf9cd [0x7559] (.node (.node .leaf 0xf9ce [0x786b] .leaf) 0xf9cf [0x7d10] (.node .leaf 0xf9d0 [0x985e]
  .leaf)))) 0xf9d1 [0x516d] (.node (.node (.node (.node .leaf 0xf9d2 [0x622e] .leaf) 0xf9d3 [0x9678] (.node .leaf 0xf9d4 [0x502b] .leaf)) 0xf9d5
  [0x5d19] (.node (.node .leaf 0xf9d6 [0x6dea] .leaf) 0xf9d7 [0x8f2a] (.node .leaf 0xf9d8 [0x5f8b] .leaf))) 0xf9d9 [0x6144] (.node (.node (.node .leaf
  0xf9da [0x6817] .leaf) 0xf9db [0x7387] (.node .leaf 0xf9dc [0x9686] .leaf)) 0xf9dd [0x5229] (.node (.node .leaf 0xf9de [0x540f] .leaf) 0xf9df
  [0x5c65] (.node .leaf 0xf9e0 [0x6613] .leaf)))))

def decTree_baabb : Tree (List Nat) :=
  .node (.node (.node (.node (.node (.node .leaf 0xf9e2 [0x68a8] .leaf) 0xf9e3 [0x6ce5] (.node .leaf 0xf9e4 [0x7406] .leaf)) 0xf9e5 [0x75e2] (.node
  (.node .leaf 0xf9e6 [0x7f79] .leaf) 0xf9e7 [0x88cf] (.node .leaf 0xf9e8 [0x88e1] .leaf))) 0xf9e9 [0x91cc] (.node (.node (.node .leaf 0xf9ea [0x96e2]
  .leaf) 0xf9eb [0x533f] (.node .leaf 0xf9ec [0x6eba] .leaf)) 0xf9ed [0x541d] (.node (.node .leaf 0xf9ee [0x71d0] .leaf) 0xf9ef [0x7498] (.node .leaf
  0xf9f0 [0x85fa] .leaf)))) 0xf9f1 [0x96a3] (.node (.node (.node (.node .leaf 0xf9f2 [0x9c57] .leaf) 0xf9f3 [0x9e9f] (.node .leaf 0xf9f4 [0x6797]
  .leaf)) 0xf9f5 [0x6dcb] (.node (.node .leaf 0xf9f6 [0x81e8] .leaf) 0xf9f7 [0x7acb] (.node .leaf 0xf9f8 [0x7b20] .leaf))) 0xf9f9 [0x7c92] (.node
  (.node (.node .leaf 0xf9fa [0x72c0] .leaf) 0xf9fb [0x7099] (.node .leaf 0xf9fc [0x8b58] .leaf)) 0xf9fd [0x4ec0] (.node (.node .leaf 0xf9fe [0x8336]
  .leaf) 0xf9ff [0x523a] (.node .leaf 0xfa00 [0x5207] .leaf))))) 0xfa01 [0x5ea6] (.node (.node (.node (.node (.node .leaf 0xfa02 [0x62d3] .leaf)
  0xfa03 [0x7cd6] (.node .leaf 0xfa04 [0x5b85] .leaf)) 0xfa05 [0x6d1e] (.node (.node .leaf 0xfa06 [0x66b4] .leaf) 0xfa07 [0x8f3b] (.node .leaf 0xfa08
  [0x884c] .leaf))) 0xfa09 [0x964d] (.node (.node (.node .leaf 0xfa0a [0x898b] .leaf) 0xfa0b [0x5ed3] (.node .leaf 0xfa0c [0x5140] .leaf)) 0xfa0d
  [0x55c0] (.node (.node .leaf 0xfa10 [0x585a] .leaf) 0xfa12 [0x6674] (.node .leaf 0xfa15 [0x51de] .leaf)))) 0xfa16 [0x732a] (.node (.node (.node
  (.node .leaf 0xfa17 [0x76ca] .leaf) 0xfa18 [0x793c] (.node .leaf 0xfa19 [0x795e] .leaf)) 0xfa1a [0x7965] (.node (.node .leaf 0xfa1b [0x798f] .leaf)
  0xfa1c [0x9756] (.node .leaf 0xfa1d [0x7cbe] .leaf))) 0xfa1e [0x7fbd] (.node (.node (.node .leaf 0xfa20 [0x8612] .leaf) 0xfa22 [0x8af8] (.node .leaf
  0xfa25 [0x9038] .leaf)) 0xfa26 [0x90fd] (.node (.node .leaf 0xfa2a [0x98ef] .leaf) 0xfa2b [0x98fc] (.node .leaf 0xfa2c [0x9928] .leaf)))))

def decTree_baab : Tree (List Nat) := .node decTree_baaba 0xf9e1 [0x674e] decTree_baabb

def decTree_baa : Tree (List Nat) := .node decTree_baaa 0xf9a0 [0x88c2] decTree_baab

def decTree_babaa : Tree (List Nat) :=
  .node (.node (.node (.node (.node (.node (.node .leaf 0xfa2e [0x90de] .leaf) 0xfa2f [0x96b7] .leaf) 0xfa30 [0x4fae] (.node .leaf 0xfa31 [0x50e7]
  .leaf)) 0xfa32 [0x514d] (.node (.node .leaf 0xfa33 [0x52c9] .leaf) 0xfa34 [0x52e4] (.node .leaf 0xfa35 [0x5351] .leaf))) 0xfa36 [0x559d] (.node
  (.node (.node .leaf 0xfa37 [0x5606] .leaf) 0xfa38 [0x5668] (.node .leaf 0xfa39 [0x5840] .leaf)) 0xfa3a [0x58a8] (.node (.node .leaf 0xfa3b [0x5c64]
  .leaf) 0xfa3c [0x5c6e] (.node .leaf 0xfa3d [0x6094] .leaf)))) 0xfa3e [0x6168] (.node (.node (.node (.node .leaf 0xfa3f [0x618e] .leaf) 0xfa40
  [0x61f2] (.node .leaf 0xfa41 [0x654f] .leaf)) 0xfa42 [0x65e2] (.node (.node .leaf 0xfa43 [0x6691] .leaf) 0xfa44 [0x6885] (.node .leaf 0xfa45
  [0x6d77] .leaf))) 0xfa46 [0x6e1a] (.node (.node (.node .leaf 0xfa47 [0x6f22] .leaf) 0xfa48 [0x716e] (.node .leaf 0xfa49 [0x722b] .leaf)) 0xfa4a
  [0x7422] (.node (.node .leaf 0xfa4b [0x7891] .leaf) 0xfa4c [0x793e] (.node .leaf 0xfa4d [0x7949] .leaf))))) 0xfa4e [0x7948] (.node (.node (.node
  (.node (.node .leaf 0xfa4f [0x7950] .leaf) 0xfa50 [0x7956] (.node .leaf 0xfa51 [0x795d] .leaf)) 0xfa52 [0x798d] (.node (.node .leaf 0xfa53 [0x798e]
  .leaf) 0xfa54 [0x7a40] (.node .leaf 0xfa55 [0x7a81] .leaf))) 0xfa56 [0x7bc0] (.node (.node (.node .leaf 0xfa57 [0x7df4] .leaf) 0xfa58 [0x7e09]
  (.node .leaf 0xfa59 [0x7e41] .leaf)) 0xfa5a [0x7f72] (.node (.node .leaf 0xfa5b [0x8005] .leaf) 0xfa5c [0x81ed] (.node .leaf 0xfa5d [0x8279]
  .leaf)))) 0xfa5e [0x8279] (.node (.node (.node (.node .leaf 0xfa5f [0x8457] .leaf) 0xfa60 [0x8910] (.node .leaf 0xfa61 [0x8996] .leaf)) 0xfa62
  [0x8b01] (.node (.node .leaf 0xfa63 [0x8b39] .leaf) 0xfa64 [0x8cd3] (.node .leaf 0xfa65 [0x8d08] .leaf))) 0xfa66 [0x8fb6] (.node (.node (.node .leaf
  0xfa67 [0x9038] .leaf) 0xfa68 [0x96e3] (.node .leaf 0xfa69 [0x97ff] .leaf)) 0xfa6a [0x983b] (.node (.node .leaf 0xfa6b [0x6075] .leaf) 0xfa6c
  [0x242ee] (.node .leaf 0xfa6d [0x8218] .leaf)))))

def decTree_babab : Tree (List Nat) :=
  .node (.node (.node (.node (.node (.node .leaf 0xfa71 [0x51b5] .leaf) 0xfa72 [0x5168] (.node .leaf 0xfa73 [0x4f80] .leaf)) 0xfa74 [0x5145] (.node
  (.node .leaf 0xfa75 [0x5180] .leaf) 0xfa76 [0x52c7] (.node .leaf 0xfa77 [0x52fa] .leaf))) 0xfa78 [0x559d] (.node (.node (.node .leaf 0xfa79 [0x5555]
  .leaf) 0xfa7a [0x5599] (.node .leaf 0xfa7b [0x55e2] .leaf)) 0xfa7c [0x585a] (.node (.node .leaf 0xfa7d [0x58b3] .leaf) 0xfa7e [0x5944] (.node .leaf
  0xfa7f [0x5954] .leaf)))) 0xfa80 [0x5a62] (.node (.node (.node (.node .leaf 0xfa81 [0x5b28] .leaf) 0xfa82 [0x5ed2] (.node .leaf 0xfa83 [0x5ed9]
  .leaf)) 0xfa84 [0x5f69] (.node (.node .leaf 0xfa85 [0x5fad] .leaf) 0xfa86 [0x60d8] (.node .leaf 0xfa87 [0x614e] .leaf))) 0xfa88 [0x6108] (.node
  (.node (.node .leaf 0xfa89 [0x618e] .leaf) 0xfa8a [0x6160] (.node .leaf 0xfa8b [0x61f2] .leaf)) 0xfa8c [0x6234] (.node (.node .leaf 0xfa8d [0x63c4]
  .leaf) 0xfa8e [0x641c] (.node .leaf 0xfa8f [0x6452] .leaf))))) 0xfa90 [0x6556] (.node (.node (.node (.node (.node .leaf 0xfa91 [0x6674] .leaf)
  0xfa92 [0x6717] (.node .leaf 0xfa93 [0x671b] .leaf)) 0xfa94 [0x6756] (.node (.node .leaf 0xfa95 [0x6b79] .leaf) 0xfa96 [0x6bba] (.node .leaf 0xfa97
  [0x6d41] .leaf))) 0xfa98 [0x6edb] (.node (.node (.node .leaf 0xfa99 [0x6ecb] .leaf) 0xfa9a [0x6f22] (.node .leaf 0xfa9b [0x701e] .leaf)) 0xfa9c
  [0x716e] (.node (.node .leaf 0xfa9d [0x77a7] .leaf) 0xfa9e [0x7235] (.node .leaf 0xfa9f [0x72af] .leaf)))) 0xfaa0 [0x732a] (.node (.node (.node
  (.node .leaf 0xfaa1 [0x7471] .leaf) 0xfaa2 [0x7506] (.node .leaf 0xfaa3 [0x753b] .leaf)) 0xfaa4 [0x761d] (.node (.node .leaf 0xfaa5 [0x761f] .leaf)
  0xfaa6 [0x76ca] (.node .leaf 0xfaa7 [0x76db] .leaf))) 0xfaa8 [0x76f4] (.node (.node (.node .leaf 0xfaa9 [0x774a] .leaf) 0xfaaa [0x7740] (.node .leaf
  0xfaab [0x78cc] .leaf)) 0xfaac [0x7ab1] (.node (.node .leaf 0xfaad [0x7bc0] .leaf) 0xfaae [0x7c7b] (.node .leaf 0xfaaf [0x7d5b] .leaf)))))

def decTree_baba : Tree (List Nat) := .node decTree_babaa 0xfa70 [0x4e26] decTree_babab

def decTree_babba : Tree (List Nat) :=
  .node (.node (.node (.node (.node (.node (.node .leaf 0xfab1 [0x7f3e] .leaf) 0xfab2 [0x8005] .leaf) 0xfab3 [0x8352] (.node .leaf 0xfab4 [0x83ef]
  .leaf)) 0xfab5 [0x8779] (.node (.node .leaf 0xfab6 [0x8941] .leaf) 0xfab7 [0x8986] (.node .leaf 0xfab8 [0x8996] .leaf))) 0xfab9 [0x8abf] (.node
  (.node (.node .leaf 0xfaba [0x8af8] .leaf) 0xfabb [0x8acb] (.node .leaf 0xfabc [0x8b01] .leaf)) 0xfabd [0x8afe] (.node (.node .leaf 0xfabe [0x8aed]
  .leaf) 0xfabf [0x8b39] (.node .leaf 0xfac0 [0x8b8a] .leaf)))) 0xfac1 [0x8d08] (.node (.node (.node (.node .leaf 0xfac2 [0x8f38] .leaf) 0xfac3
  [0x9072] (.node .leaf 0xfac4 [0x9199] .leaf)) 0xfac5 [0x9276] (.node (.node .leaf 0xfac6 [0x967c] .leaf) 0xfac7 [0x96e3] (.node .leaf 0xfac8
  [0x9756] .leaf))) 0xfac9 [0x97db] (.node (.node (.node .leaf 0xfaca [0x97ff] .leaf) 0xfacb [0x980b] (.node .leaf 0xfacc [0x983b] .leaf)) 0xfacd
  [0x9b12] (.node (.node .leaf 0xface [0x9f9c] .leaf) 0xfacf [0x2284a] (.node .leaf 0xfad0 [0x22844] .leaf))))) 0xfad1 [0x233d5] (.node (.node (.node
  (.node (.node .leaf 0xfad2 [0x3b9d] .leaf) 0xfad3 [0x4018] (.node .leaf 0xfad4 [0x4039] .leaf)) 0xfad5 [0x25249] (.node (.node .leaf 0xfad6
  [0x25cd0] .leaf) 0xfad7 [0x27ed3] (.node .leaf 0xfad8 [0x9f43] .leaf))) 0xfad9 [0x9f8e] (.node (.node (.node .leaf 0xfb1d [0x5d9, 0x5b4] .leaf)
  0xfb1f [0x5f2, 0x5b7] (.node .leaf 0xfb2a [0x5e9, 0x5c1] .leaf)) 0xfb2b [0x5e9, 0x5c2] (.node (.node .leaf 0xfb2c [0x5e9, 0x5bc, 0x5c1] .leaf)
  0xfb2d [0x5e9, 0x5bc, 0x5c2] (.node .leaf 0xfb2e [0x5d0, 0x5b7] .leaf)))) 0xfb2f [0x5d0, 0x5b8] (.node (.node (.node (.node .leaf 0xfb30 [0x5d0,
  0x5bc] .leaf) 0xfb31 [0x5d1, 0x5bc] (.node .leaf 0xfb32 [0x5d2, 0x5bc] .leaf)) 0xfb33 [0x5d3, 0x5bc] (.node (.node .leaf 0xfb34 [0x5d4, 0x5bc]
  .leaf) 0xfb35 [0x5d5, 0x5bc] (.node .leaf 0xfb36 [0x5d6, 0x5bc] .leaf))) 0xfb38 [0x5d8, 0x5bc] (.node (.node (.node .leaf 0xfb39 [0x5d9, 0x5bc]
  .leaf) 0xfb3a [0x5da, 0x5bc] (.node .leaf 0xfb3b [0x5db, 0x5bc] .leaf)) 0xfb3c [0x5dc, 0x5bc] (.node (.node .leaf 0xfb3e [0x5de, 0x5bc] .leaf)
  0xfb40 [0x5e0, 0x5bc] (.node .leaf 0xfb41 [0x5e1, 0x5bc] .leaf)))))

def decTree_babbb : Tree (List Nat) :=
  .node (.node (.node (.node (.node (.node .leaf 0xfb44 [0x5e4, 0x5bc] .leaf) 0xfb46 [0x5e6, 0x5bc] (.node .leaf 0xfb47 [0x5e7, 0x5bc] .leaf)) 0xfb48
  [0x5e8, 0x5bc] (.node (.node .leaf 0xfb49 [0x5e9, 0x5bc] .leaf) 0xfb4a [0x5ea, 0x5bc] (.node .leaf 0xfb4b [0x5d5, 0x5b9] .leaf))) 0xfb4c [0x5d1,
  0x5bf] (.node (.node (.node .leaf 0xfb4d [0x5db, 0x5bf] .leaf) 0xfb4e [0x5e4, 0x5bf] (.node .leaf 0x1109a [0x11099, 0x110ba] .leaf)) 0x1109c
  [0x1109b, 0x110ba] (.node (.node .leaf 0x110ab [0x110a5, 0x110ba] .leaf) 0x1112e [0x11131, 0x11127] (.node .leaf 0x1112f [0x11132, 0x11127]
  .leaf)))) 0x1134b [0x11347, 0x1133e] (.node (.node (.node (.node .leaf 0x1134c [0x11347, 0x11357] .leaf) 0x114bb [0x114b9, 0x114ba] (.node .leaf
  0x114bc [0x114b9, 0x114b0] .leaf)) 0x114be [0x114b9, 0x114bd] (.node (.node .leaf 0x115ba [0x115b8, 0x115af] .leaf) 0x115bb [0x115b9, 0x115af]
  (.node .leaf 0x11938 [0x11935, 0x11930] .leaf))) 0x1d15e [0x1d157, 0x1d165] (.node (.node (.node .leaf 0x1d15f [0x1d158, 0x1d165] .leaf) 0x1d160
  [0x1d158, 0x1d165, 0x1d16e] (.node .leaf 0x1d161 [0x1d158, 0x1d165, 0x1d16f] .leaf)) 0x1d162 [0x1d158, 0x1d165, 0x1d170] (.node (.node .leaf 0x1d163
  [0x1d158, 0x1d165, 0x1d171] .leaf) 0x1d164 [0x1d158, 0x1d165, 0x1d172] (.node .leaf 0x1d1bb [0x1d1b9, 0x1d165] .leaf))))) 0x1d1bc [0x1d1ba, 0x1d165]
  (.node (.node (.node (.node (.node .leaf 0x1d1bd [0x1d1b9, 0x1d165, 0x1d16e] .leaf) 0x1d1be [0x1d1ba, 0x1d165, 0x1d16e] (.node .leaf 0x1d1bf
  [0x1d1b9, 0x1d165, 0x1d16f] .leaf)) 0x1d1c0 [0x1d1ba, 0x1d165, 0x1d16f] (.node (.node .leaf 0x2f800 [0x4e3d] .leaf) 0x2f801 [0x4e38] (.node .leaf
  0x2f802 [0x4e41] .leaf))) 0x2f803 [0x20122] (.node (.node (.node .leaf 0x2f804 [0x4f60] .leaf) 0x2f805 [0x4fae] (.node .leaf 0x2f806 [0x4fbb]
  .leaf)) 0x2f807 [0x5002] (.node (.node .leaf 0x2f808 [0x507a] .leaf) 0x2f809 [0x5099] (.node .leaf 0x2f80a [0x50e7] .leaf)))) 0x2f80b [0x50cf]
  (.node (.node (.node (.node .leaf 0x2f80c [0x349e] .leaf) 0x2f80d [0x2063a] (.node .leaf 0x2f80e [0x514d] .leaf)) 0x2f80f [0x5154] (.node (.node
  .leaf 0x2f810 [0x5164] .leaf) 0x2f811 [0x5177] (.node .leaf 0x2f812 [0x2051c] .leaf))) 0x2f813 [0x34b9] (.node (.node (.node .leaf 0x2f814 [0x5167]
  .leaf) 0x2f815 [0x518d] (.node .leaf 0x2f816 [0x2054b] .leaf)) 0x2f817 [0x5197] (.node (.node .leaf 0x2f818 [0x51a4] .leaf) 0x2f819 [0x4ecc] (.node
  .leaf 0x2f81a [0x51ac] .leaf)))))

def decTree_babb : Tree (List Nat) := .node decTree_babba 0xfb43 [0x5e3, 0x5bc] decTree_babbb

def decTree_bab : Tree (List Nat) := .node decTree_baba 0xfab0 [0x7df4] decTree_babb

def decTree_ba : Tree (List Nat) := .node decTree_baa 0xfa2d [0x9db4] decTree_bab

def decTree_bbaaa : Tree (List Nat) :=
  .node (.node (.node (.node (.node (.node (.node .leaf 0x2f81c [0x291df] .leaf) 0x2f81d [0x51f5] .leaf) 0x2f81e [0x5203] (.node .leaf 0x2f81f
  [0x34df] .leaf)) 0x2f820 [0x523b] (.node (.node .leaf 0x2f821 [0x5246] .leaf) 0x2f822 [0x5272] (.node .leaf 0x2f823 [0x5277] .leaf))) 0x2f824
  [0x3515] (.node (.node (.node .leaf 0x2f825 [0x52c7] .leaf) 0x2f826 [0x52c9] (.node .leaf 0x2f827 [0x52e4] .leaf)) 0x2f828 [0x52fa] (.node (.node
  .leaf 0x2f829 [0x5305] .leaf) 0x2f82a [0x5306] (.node .leaf 0x2f82b [0x5317] .leaf)))) 0x2f82c [0x5349] (.node (.node (.node (.node .leaf 0x2f82d
  [0x5351] .leaf) 0x2f82e [0x535a] (.node .leaf 0x2f82f [0x5373] .leaf)) 0x2f830 [0x537d] (.node (.node .leaf 0x2f831 [0x537f] .leaf) 0x2f832 [0x537f]
  (.node .leaf 0x2f833 [0x537f] .leaf))) 0x2f834 [0x20a2c] (.node (.node (.node .leaf 0x2f835 [0x7070] .leaf) 0x2f836 [0x53ca] (.node .leaf 0x2f837
  [0x53df] .leaf)) 0x2f838 [0x20b63] (.node (.node .leaf 0x2f839 [0x53eb] .leaf) 0x2f83a [0x53f1] (.node .leaf 0x2f83b [0x5406] .leaf))))) 0x2f83c
  [0x549e] (.node (.node (.node (.node (.node .leaf 0x2f83d [0x5438] .leaf) 0x2f83e [0x5448] (.node .leaf 0x2f83f [0x5468] .leaf)) 0x2f840 [0x54a2]
  (.node (.node .leaf 0x2f841 [0x54f6] .leaf) 0x2f842 [0x5510] (.node .leaf 0x2f843 [0x5553] .leaf))) 0x2f844 [0x5563] (.node (.node (.node .leaf
  0x2f845 [0x5584] .leaf) 0x2f846 [0x5584] (.node .leaf 0x2f847 [0x5599] .leaf)) 0x2f848 [0x55ab] (.node (.node .leaf 0x2f849 [0x55b3] .leaf) 0x2f84a
  [0x55c2] (.node .leaf 0x2f84b [0x5716] .leaf)))) 0x2f84c [0x5606] (.node (.node (.node (.node .leaf 0x2f84d [0x5717] .leaf) 0x2f84e [0x5651] (.node
  .leaf 0x2f84f [0x5674] .leaf)) 0x2f850 [0x5207] (.node (.node .leaf 0x2f851 [0x58ee] .leaf) 0x2f852 [0x57ce] (.node .leaf 0x2f853 [0x57f4] .leaf)))
  0x2f854 [0x580d] (.node (.node (.node .leaf 0x2f855 [0x578b] .leaf) 0x2f856 [0x5832] (.node .leaf 0x2f857 [0x5831] .leaf)) 0x2f858 [0x58ac] (.node
  (.node .leaf 0x2f859 [0x214e4] .leaf) 0x2f85a [0x58f2] (.node .leaf 0x2f85b [0x58f7] .leaf)))))

def decTree_bbaab : Tree (List Nat) :=
  .node (.node (.node (.node (.node (.node .leaf 0x2f85d [0x591a] .leaf) 0x2f85e [0x5922] (.node .leaf 0x2f85f [0x5962] .leaf)) 0x2f860 [0x216a8]
  (.node (.node .leaf 0x2f861 [0x216ea] .leaf) 0x2f862 [0x59ec] (.node .leaf 0x2f863 [0x5a1b] .leaf))) 0x2f864 [0x5a27] (.node (.node (.node .leaf
  0x2f865 [0x59d8] .leaf) 0x2f866 [0x5a66] (.node .leaf 0x2f867 [0x36ee] .leaf)) 0x2f868 [0x36fc] (.node (.node .leaf 0x2f869 [0x5b08] .leaf) 0x2f86a
  [0x5b3e] (.node .leaf 0x2f86b [0x5b3e] .leaf)))) 0x2f86c [0x219c8] (.node (.node (.node (.node .leaf 0x2f86d [0x5bc3] .leaf) 0x2f86e [0x5bd8] (.node
  .leaf 0x2f86f [0x5be7] .leaf)) 0x2f870 [0x5bf3] (.node (.node .leaf 0x2f871 [0x21b18] .leaf) 0x2f872 [0x5bff] (.node .leaf 0x2f873 [0x5c06] .leaf)))
  0x2f874 [0x5f53] (.node (.node (.node .leaf 0x2f875 [0x5c22] .leaf) 0x2f876 [0x3781] (.node .leaf 0x2f877 [0x5c60] .leaf)) 0x2f878 [0x5c6e] (.node
  (.node .leaf 0x2f879 [0x5cc0] .leaf) 0x2f87a [0x5c8d] (.node .leaf 0x2f87b [0x21de4] .leaf))))) 0x2f87c [0x5d43] (.node (.node (.node (.node (.node
  .leaf 0x2f87d [0x21de6] .leaf) 0x2f87e [0x5d6e] (.node .leaf 0x2f87f [0x5d6b] .leaf)) 0x2f880 [0x5d7c] (.node (.node .leaf 0x2f881 [0x5de1] .leaf)
  0x2f882 [0x5de2] (.node .leaf 0x2f883 [0x382f] .leaf))) 0x2f884 [0x5dfd] (.node (.node (.node .leaf 0x2f885 [0x5e28] .leaf) 0x2f886 [0x5e3d] (.node
  .leaf 0x2f887 [0x5e69] .leaf)) 0x2f888 [0x3862] (.node (.node .leaf 0x2f889 [0x22183] .leaf) 0x2f88a [0x387c] (.node .leaf 0x2f88b [0x5eb0]
  .leaf)))) 0x2f88c [0x5eb3] (.node (.node (.node (.node .leaf 0x2f88d [0x5eb6] .leaf) 0x2f88e [0x5eca] (.node .leaf 0x2f88f [0x2a392] .leaf)) 0x2f890
  [0x5efe] (.node (.node .leaf 0x2f891 [0x22331] .leaf) 0x2f892 [0x22331] (.node .leaf 0x2f893 [0x8201] .leaf))) 0x2f894 [0x5f22] (.node (.node (.node
  .leaf 0x2f895 [0x5f22] .leaf) 0x2f896 [0x38c7] (.node .leaf 0x2f897 [0x232b8] .leaf)) 0x2f898 [0x261da] (.node (.node .leaf 0x2f899 [0x5f62] .leaf)
  0x2f89a [0x5f6b] (.node .leaf 0x2f89b [0x38e3] .leaf)))))

def decTree_bbaa : Tree (List Nat) := .node decTree_bbaaa 0x2f85c [0x5906] decTree_bbaab

def decTree_bbaba : Tree (List Nat) :=
  .node (.node (.node (.node (.node (.node (.node .leaf 0x2f89d [0x5fcd] .leaf) 0x2f89e [0x5fd7] .leaf) 0x2f89f [0x5ff9] (.node .leaf 0x2f8a0 [0x6081]
  .leaf)) 0x2f8a1 [0x393a] (.node (.node .leaf 0x2f8a2 [0x391c] .leaf) 0x2f8a3 [0x6094] (.node .leaf 0x2f8a4 [0x226d4] .leaf))) 0x2f8a5 [0x60c7]
  (.node (.node (.node .leaf 0x2f8a6 [0x6148] .leaf) 0x2f8a7 [0x614c] (.node .leaf 0x2f8a8 [0x614e] .leaf)) 0x2f8a9 [0x614c] (.node (.node .leaf
  0x2f8aa [0x617a] .leaf) 0x2f8ab [0x618e] (.node .leaf 0x2f8ac [0x61b2] .leaf)))) 0x2f8ad [0x61a4] (.node (.node (.node (.node .leaf 0x2f8ae [0x61af]
  .leaf) 0x2f8af [0x61de] (.node .leaf 0x2f8b0 [0x61f2] .leaf)) 0x2f8b1 [0x61f6] (.node (.node .leaf 0x2f8b2 [0x6210] .leaf) 0x2f8b3 [0x621b] (.node
  .leaf 0x2f8b4 [0x625d] .leaf))) 0x2f8b5 [0x62b1] (.node (.node (.node .leaf 0x2f8b6 [0x62d4] .leaf) 0x2f8b7 [0x6350] (.node .leaf 0x2f8b8 [0x22b0c]
  .leaf)) 0x2f8b9 [0x633d] (.node (.node .leaf 0x2f8ba [0x62fc] .leaf) 0x2f8bb [0x6368] (.node .leaf 0x2f8bc [0x6383] .leaf))))) 0x2f8bd [0x63e4]
  (.node (.node (.node (.node (.node .leaf 0x2f8be [0x22bf1] .leaf) 0x2f8bf [0x6422] (.node .leaf 0x2f8c0 [0x63c5] .leaf)) 0x2f8c1 [0x63a9] (.node
  (.node .leaf 0x2f8c2 [0x3a2e] .leaf) 0x2f8c3 [0x6469] (.node .leaf 0x2f8c4 [0x647e] .leaf))) 0x2f8c5 [0x649d] (.node (.node (.node .leaf 0x2f8c6
  [0x6477] .leaf) 0x2f8c7 [0x3a6c] (.node .leaf 0x2f8c8 [0x654f] .leaf)) 0x2f8c9 [0x656c] (.node (.node .leaf 0x2f8ca [0x2300a] .leaf) 0x2f8cb
  [0x65e3] (.node .leaf 0x2f8cc [0x66f8] .leaf)))) 0x2f8cd [0x6649] (.node (.node (.node (.node .leaf 0x2f8ce [0x3b19] .leaf) 0x2f8cf [0x6691] (.node
  .leaf 0x2f8d0 [0x3b08] .leaf)) 0x2f8d1 [0x3ae4] (.node (.node .leaf 0x2f8d2 [0x5192] .leaf) 0x2f8d3 [0x5195] (.node .leaf 0x2f8d4 [0x6700] .leaf)))
  0x2f8d5 [0x669c] (.node (.node (.node .leaf 0x2f8d6 [0x80ad] .leaf) 0x2f8d7 [0x43d9] (.node .leaf 0x2f8d8 [0x6717] .leaf)) 0x2f8d9 [0x671b] (.node
  (.node .leaf 0x2f8da [0x6721] .leaf) 0x2f8db [0x675e] (.node .leaf 0x2f8dc [0x6753] .leaf)))))

def decTree_bbabb : Tree (List Nat) :=
  .node (.node (.node (.node (.node (.node .leaf 0x2f8de [0x3b49] .leaf) 0x2f8df [0x67fa] (.node .leaf 0x2f8e0 [0x6785] .leaf)) 0x2f8e1 [0x6852]
  (.node (.node .leaf 0x2f8e2 [0x6885] .leaf) 0x2f8e3 [0x2346d] (.node .leaf 0x2f8e4 [0x688e] .leaf))) 0x2f8e5 [0x681f] (.node (.node (.node .leaf
  0x2f8e6 [0x6914] .leaf) 0x2f8e7 [0x3b9d] (.node .leaf 0x2f8e8 [0x6942] .leaf)) 0x2f8e9 [0x69a3] (.node (.node .leaf 0x2f8ea [0x69ea] .leaf) 0x2f8eb
  [0x6aa8] (.node .leaf 0x2f8ec [0x236a3] .leaf)))) 0x2f8ed [0x6adb] (.node (.node (.node (.node .leaf 0x2f8ee [0x3c18] .leaf) 0x2f8ef [0x6b21] (.node
  .leaf 0x2f8f0 [0x238a7] .leaf)) 0x2f8f1 [0x6b54] (.node (.node .leaf 0x2f8f2 [0x3c4e] .leaf) 0x2f8f3 [0x6b72] (.node .leaf 0x2f8f4 [0x6b9f] .leaf)))
  0x2f8f5 [0x6bba] (.node (.node (.node .leaf 0x2f8f6 [0x6bbb] .leaf) 0x2f8f7 [0x23a8d] (.node .leaf 0x2f8f8 [0x21d0b] .leaf)) 0x2f8f9 [0x23afa]
  (.node (.node .leaf 0x2f8fa [0x6c4e] .leaf) 0x2f8fb [0x23cbc] (.node .leaf 0x2f8fc [0x6cbf] .leaf))))) 0x2f8fd [0x6ccd] (.node (.node (.node (.node
  (.node .leaf 0x2f8fe [0x6c67] .leaf) 0x2f8ff [0x6d16] (.node .leaf 0x2f900 [0x6d3e] .leaf)) 0x2f901 [0x6d77] (.node (.node .leaf 0x2f902 [0x6d41]
  .leaf) 0x2f903 [0x6d69] (.node .leaf 0x2f904 [0x6d78] .leaf))) 0x2f905 [0x6d85] (.node (.node (.node .leaf 0x2f906 [0x23d1e] .leaf) 0x2f907 [0x6d34]
  (.node .leaf 0x2f908 [0x6e2f] .leaf)) 0x2f909 [0x6e6e] (.node (.node .leaf 0x2f90a [0x3d33] .leaf) 0x2f90b [0x6ecb] (.node .leaf 0x2f90c [0x6ec7]
  .leaf)))) 0x2f90d [0x23ed1] (.node (.node (.node (.node .leaf 0x2f90e [0x6df9] .leaf) 0x2f90f [0x6f6e] (.node .leaf 0x2f910 [0x23f5e] .leaf))
  0x2f911 [0x23f8e] (.node (.node .leaf 0x2f912 [0x6fc6] .leaf) 0x2f913 [0x7039] (.node .leaf 0x2f914 [0x701e] .leaf))) 0x2f915 [0x701b] (.node (.node
  (.node .leaf 0x2f916 [0x3d96] .leaf) 0x2f917 [0x704a] (.node .leaf 0x2f918 [0x707d] .leaf)) 0x2f919 [0x7077] (.node (.node .leaf 0x2f91a [0x70ad]
  .leaf) 0x2f91b [0x20525] (.node .leaf 0x2f91c [0x7145] .leaf)))))

def decTree_bbab : Tree (List Nat) := .node decTree_bbaba 0x2f8dd [0x233c3] decTree_bbabb

def decTree_bba : Tree (List Nat) := .node decTree_bbaa 0x2f89c [0x5f9a] decTree_bbab

def decTree_bbbaa : Tree (List Nat) :=
  .node (.node (.node (.node (.node (.node (.node .leaf 0x2f91e [0x719c] .leaf) 0x2f91f [0x243ab] .leaf) 0x2f920 [0x7228] (.node .leaf 0x2f921
  [0x7235] .leaf)) 0x2f922 [0x7250] (.node (.node .leaf 0x2f923 [0x24608] .leaf) 0x2f924 [0x7280] (.node .leaf 0x2f925 [0x7295] .leaf))) 0x2f926
  [0x24735] (.node (.node (.node .leaf 0x2f927 [0x24814] .leaf) 0x2f928 [0x737a] (.node .leaf 0x2f929 [0x738b] .leaf)) 0x2f92a [0x3eac] (.node (.node
  .leaf 0x2f92b [0x73a5] .leaf) 0x2f92c [0x3eb8] (.node .leaf 0x2f92d [0x3eb8] .leaf)))) 0x2f92e [0x7447] (.node (.node (.node (.node .leaf 0x2f92f
  [0x745c] .leaf) 0x2f930 [0x7471] (.node .leaf 0x2f931 [0x7485] .leaf)) 0x2f932 [0x74ca] (.node (.node .leaf 0x2f933 [0x3f1b] .leaf) 0x2f934 [0x7524]
  (.node .leaf 0x2f935 [0x24c36] .leaf))) 0x2f936 [0x753e] (.node (.node (.node .leaf 0x2f937 [0x24c92] .leaf) 0x2f938 [0x7570] (.node .leaf 0x2f939
  [0x2219f] .leaf)) 0x2f93a [0x7610] (.node (.node .leaf 0x2f93b [0x24fa1] .leaf) 0x2f93c [0x24fb8] (.node .leaf 0x2f93d [0x25044] .leaf))))) 0x2f93e
  [0x3ffc] (.node (.node (.node (.node (.node .leaf 0x2f93f [0x4008] .leaf) 0x2f940 [0x76f4] (.node .leaf 0x2f941 [0x250f3] .leaf)) 0x2f942 [0x250f2]
  (.node (.node .leaf 0x2f943 [0x25119] .leaf) 0x2f944 [0x25133] (.node .leaf 0x2f945 [0x771e] .leaf))) 0x2f946 [0x771f] (.node (.node (.node .leaf
  0x2f947 [0x771f] .leaf) 0x2f948 [0x774a] (.node .leaf 0x2f949 [0x4039] .leaf)) 0x2f94a [0x778b] (.node (.node .leaf 0x2f94b [0x4046] .leaf) 0x2f94c
  [0x4096] (.node .leaf 0x2f94d [0x2541d] .leaf)))) 0x2f94e [0x784e] (.node (.node (.node (.node .leaf 0x2f94f [0x788c] .leaf) 0x2f950 [0x78cc] (.node
  .leaf 0x2f951 [0x40e3] .leaf)) 0x2f952 [0x25626] (.node (.node .leaf 0x2f953 [0x7956] .leaf) 0x2f954 [0x2569a] (.node .leaf 0x2f955 [0x256c5]
  .leaf))) 0x2f956 [0x798f] (.node (.node (.node .leaf 0x2f957 [0x79eb] .leaf) 0x2f958 [0x412f] (.node .leaf 0x2f959 [0x7a40] .leaf)) 0x2f95a [0x7a4a]
  (.node (.node .leaf 0x2f95b [0x7a4f] .leaf) 0x2f95c [0x2597c] (.node .leaf 0x2f95d [0x25aa7] .leaf)))))

def decTree_bbbab : Tree (List Nat) :=
  .node (.node (.node (.node (.node (.node .leaf 0x2f95f [0x7aee] .leaf) 0x2f960 [0x4202] (.node .leaf 0x2f961 [0x25bab] .leaf)) 0x2f962 [0x7bc6]
  (.node (.node .leaf 0x2f963 [0x7bc9] .leaf) 0x2f964 [0x4227] (.node .leaf 0x2f965 [0x25c80] .leaf))) 0x2f966 [0x7cd2] (.node (.node (.node .leaf
  0x2f967 [0x42a0] .leaf) 0x2f968 [0x7ce8] (.node .leaf 0x2f969 [0x7ce3] .leaf)) 0x2f96a [0x7d00] (.node (.node .leaf 0x2f96b [0x25f86] .leaf) 0x2f96c
  [0x7d63] (.node .leaf 0x2f96d [0x4301] .leaf)))) 0x2f96e [0x7dc7] (.node (.node (.node (.node .leaf 0x2f96f [0x7e02] .leaf) 0x2f970 [0x7e45] (.node
  .leaf 0x2f971 [0x4334] .leaf)) 0x2f972 [0x26228] (.node (.node .leaf 0x2f973 [0x26247] .leaf) 0x2f974 [0x4359] (.node .leaf 0x2f975 [0x262d9]
  .leaf))) 0x2f976 [0x7f7a] (.node (.node (.node .leaf 0x2f977 [0x2633e] .leaf) 0x2f978 [0x7f95] (.node .leaf 0x2f979 [0x7ffa] .leaf)) 0x2f97a
  [0x8005] (.node (.node .leaf 0x2f97b [0x264da] .leaf) 0x2f97c [0x26523] (.node .leaf 0x2f97d [0x8060] .leaf))))) 0x2f97e [0x265a8] (.node (.node
  (.node (.node (.node .leaf 0x2f97f [0x8070] .leaf) 0x2f980 [0x2335f] (.node .leaf 0x2f981 [0x43d5] .leaf)) 0x2f982 [0x80b2] (.node (.node .leaf
  0x2f983 [0x8103] .leaf) 0x2f984 [0x440b] (.node .leaf 0x2f985 [0x813e] .leaf))) 0x2f986 [0x5ab5] (.node (.node (.node .leaf 0x2f987 [0x267a7] .leaf)
  0x2f988 [0x267b5] (.node .leaf 0x2f989 [0x23393] .leaf)) 0x2f98a [0x2339c] (.node (.node .leaf 0x2f98b [0x8201] .leaf) 0x2f98c [0x8204] (.node .leaf
  0x2f98d [0x8f9e] .leaf)))) 0x2f98e [0x446b] (.node (.node (.node (.node .leaf 0x2f98f [0x8291] .leaf) 0x2f990 [0x828b] (.node .leaf 0x2f991 [0x829d]
  .leaf)) 0x2f992 [0x52b3] (.node (.node .leaf 0x2f993 [0x82b1] .leaf) 0x2f994 [0x82b3] (.node .leaf 0x2f995 [0x82bd] .leaf))) 0x2f996 [0x82e6] (.node
  (.node (.node .leaf 0x2f997 [0x26b3c] .leaf) 0x2f998 [0x82e5] (.node .leaf 0x2f999 [0x831d] .leaf)) 0x2f99a [0x8363] (.node (.node .leaf 0x2f99b
  [0x83ad] .leaf) 0x2f99c [0x8323] (.node .leaf 0x2f99d [0x83bd] .leaf)))))

def decTree_bbba : Tree (List Nat) := .node decTree_bbbaa 0x2f95e [0x25aa7] decTree_bbbab

def decTree_bbbba : Tree (List Nat) :=
  .node (.node (.node (.node (.node (.node .leaf 0x2f99f [0x8457] .leaf) 0x2f9a0 [0x8353] (.node .leaf 0x2f9a1 [0x83ca] .leaf)) 0x2f9a2 [0x83cc]
  (.node (.node .leaf 0x2f9a3 [0x83dc] .leaf) 0x2f9a4 [0x26c36] (.node .leaf 0x2f9a5 [0x26d6b] .leaf))) 0x2f9a6 [0x26cd5] (.node (.node (.node .leaf
  0x2f9a7 [0x452b] .leaf) 0x2f9a8 [0x84f1] (.node .leaf 0x2f9a9 [0x84f3] .leaf)) 0x2f9aa [0x8516] (.node (.node .leaf 0x2f9ab [0x273ca] .leaf) 0x2f9ac
  [0x8564] (.node .leaf 0x2f9ad [0x26f2c] .leaf)))) 0x2f9ae [0x455d] (.node (.node (.node (.node .leaf 0x2f9af [0x4561] .leaf) 0x2f9b0 [0x26fb1]
  (.node .leaf 0x2f9b1 [0x270d2] .leaf)) 0x2f9b2 [0x456b] (.node (.node .leaf 0x2f9b3 [0x8650] .leaf) 0x2f9b4 [0x865c] (.node .leaf 0x2f9b5 [0x8667]
  .leaf))) 0x2f9b6 [0x8669] (.node (.node (.node .leaf 0x2f9b7 [0x86a9] .leaf) 0x2f9b8 [0x8688] (.node .leaf 0x2f9b9 [0x870e] .leaf)) 0x2f9ba [0x86e2]
  (.node (.node .leaf 0x2f9bb [0x8779] .leaf) 0x2f9bc [0x8728] (.node .leaf 0x2f9bd [0x876b] .leaf))))) 0x2f9be [0x8786] (.node (.node (.node (.node
  (.node .leaf 0x2f9bf [0x45d7] .leaf) 0x2f9c0 [0x87e1] (.node .leaf 0x2f9c1 [0x8801] .leaf)) 0x2f9c2 [0x45f9] (.node (.node .leaf 0x2f9c3 [0x8860]
  .leaf) 0x2f9c4 [0x8863] (.node .leaf 0x2f9c5 [0x27667] .leaf))) 0x2f9c6 [0x88d7] (.node (.node (.node .leaf 0x2f9c7 [0x88de] .leaf) 0x2f9c8 [0x4635]
  (.node .leaf 0x2f9c9 [0x88fa] .leaf)) 0x2f9ca [0x34bb] (.node (.node .leaf 0x2f9cb [0x278ae] .leaf) 0x2f9cc [0x27966] (.node .leaf 0x2f9cd [0x46be]
  .leaf)))) 0x2f9ce [0x46c7] (.node (.node (.node (.node .leaf 0x2f9cf [0x8aa0] .leaf) 0x2f9d0 [0x8aed] (.node .leaf 0x2f9d1 [0x8b8a] .leaf)) 0x2f9d2
  [0x8c55] (.node (.node .leaf 0x2f9d3 [0x27ca8] .leaf) 0x2f9d4 [0x8cab] (.node .leaf 0x2f9d5 [0x8cc1] .leaf))) 0x2f9d6 [0x8d1b] (.node (.node (.node
  .leaf 0x2f9d7 [0x8d77] .leaf) 0x2f9d8 [0x27f2f] (.node .leaf 0x2f9d9 [0x20804] .leaf)) 0x2f9da [0x8dcb] (.node (.node .leaf 0x2f9db [0x8dbc] .leaf)
  0x2f9dc [0x8df0] (.node .leaf 0x2f9dd [0x208de] .leaf)))))

def decTree_bbbbb : Tree (List Nat) :=
  .node (.node (.node (.node (.node (.node .leaf 0x2f9df [0x8f38] .leaf) 0x2f9e0 [0x285d2] (.node .leaf 0x2f9e1 [0x285ed] .leaf)) 0x2f9e2 [0x9094]
  (.node (.node .leaf 0x2f9e3 [0x90f1] .leaf) 0x2f9e4 [0x9111] (.node .leaf 0x2f9e5 [0x2872e] .leaf))) 0x2f9e6 [0x911b] (.node (.node (.node .leaf
  0x2f9e7 [0x9238] .leaf) 0x2f9e8 [0x92d7] (.node .leaf 0x2f9e9 [0x92d8] .leaf)) 0x2f9ea [0x927c] (.node (.node .leaf 0x2f9eb [0x93f9] .leaf) 0x2f9ec
  [0x9415] (.node .leaf 0x2f9ed [0x28bfa] .leaf)))) 0x2f9ee [0x958b] (.node (.node (.node (.node .leaf 0x2f9ef [0x4995] .leaf) 0x2f9f0 [0x95b7] (.node
  .leaf 0x2f9f1 [0x28d77] .leaf)) 0x2f9f2 [0x49e6] (.node (.node .leaf 0x2f9f3 [0x96c3] .leaf) 0x2f9f4 [0x5db2] (.node .leaf 0x2f9f5 [0x9723] .leaf)))
  0x2f9f6 [0x29145] (.node (.node (.node .leaf 0x2f9f7 [0x2921a] .leaf) 0x2f9f8 [0x4a6e] (.node .leaf 0x2f9f9 [0x4a76] .leaf)) 0x2f9fa [0x97e0] (.node
  (.node .leaf 0x2f9fb [0x2940a] .leaf) 0x2f9fc [0x4ab2] (.node .leaf 0x2f9fd [0x29496] .leaf))))) 0x2f9fe [0x980b] (.node (.node (.node (.node (.node
  .leaf 0x2f9ff [0x980b] .leaf) 0x2fa00 [0x9829] (.node .leaf 0x2fa01 [0x295b6] .leaf)) 0x2fa02 [0x98e2] (.node (.node .leaf 0x2fa03 [0x4b33] .leaf)
  0x2fa04 [0x9929] (.node .leaf 0x2fa05 [0x99a7] .leaf))) 0x2fa06 [0x99c2] (.node (.node (.node .leaf 0x2fa07 [0x99fe] .leaf) 0x2fa08 [0x4bce] (.node
  .leaf 0x2fa09 [0x29b30] .leaf)) 0x2fa0a [0x9b12] (.node (.node .leaf 0x2fa0b [0x9c40] .leaf) 0x2fa0c [0x9cfd] (.node .leaf 0x2fa0d [0x4cce]
  .leaf)))) 0x2fa0e [0x4ced] (.node (.node (.node (.node .leaf 0x2fa0f [0x9d67] .leaf) 0x2fa10 [0x2a0ce] (.node .leaf 0x2fa11 [0x4cf8] .leaf)) 0x2fa12
  [0x2a105] (.node (.node .leaf 0x2fa13 [0x2a20e] .leaf) 0x2fa14 [0x2a291] (.node .leaf 0x2fa15 [0x9ebb] .leaf))) 0x2fa16 [0x4d56] (.node (.node
  (.node .leaf 0x2fa17 [0x9ef9] .leaf) 0x2fa18 [0x9efe] (.node .leaf 0x2fa19 [0x9f05] .leaf)) 0x2fa1a [0x9f0f] (.node (.node .leaf 0x2fa1b [0x9f16]
  .leaf) 0x2fa1c [0x9f3b] (.node .leaf 0x2fa1d [0x2a600] .leaf)))))

def decTree_bbbb : Tree (List Nat) := .node decTree_bbbba 0x2f9de [0x8ed4] decTree_bbbbb

def decTree_bbb : Tree (List Nat) := .node decTree_bbba 0x2f99e [0x83e7] decTree_bbbb

def decTree_bb : Tree (List Nat) := .node decTree_bba 0x2f91d [0x24263] decTree_bbb

def decTree_b : Tree (List Nat) := .node decTree_ba 0x2f81b [0x51b5] decTree_bb

/-- canonical decompositions of Unicode -/
def decTree : Tree (List Nat) := .node decTree_a 0xf91f [0x862d] decTree_b

def cfTree_aaaa : Tree (List Nat) :=
  .node (.node (.node (.node (.node (.node (.node .leaf 0x41 [0x61] .leaf) 0x42 [0x62] .leaf) 0x43 [0x63] (.node (.node .leaf 0x44 [0x64] .leaf) 0x45
  [0x65] .leaf)) 0x46 [0x66] (.node (.node (.node .leaf 0x47 [0x67] .leaf) 0x48 [0x68] .leaf) 0x49 [0x69] (.node (.node .leaf 0x4a [0x6a] .leaf) 0x4b
  [0x6b] .leaf))) 0x4c [0x6c] (.node (.node (.node (.node .leaf 0x4d [0x6d] .leaf) 0x4e [0x6e] .leaf) 0x4f [0x6f] (.node (.node .leaf 0x50 [0x70]
  .leaf) 0x51 [0x71] .leaf)) 0x52 [0x72] (.node (.node (.node .leaf 0x53 [0x73] .leaf) 0x54 [0x74] .leaf) 0x55 [0x75] (.node (.node .leaf 0x56 [0x76]
  .leaf) 0x57 [0x77] .leaf)))) 0x58 [0x78] (.node (.node (.node (.node (.node .leaf 0x59 [0x79] .leaf) 0x5a [0x7a] .leaf) 0xb5 [0x3bc] (.node (.node
  .leaf 0xc0 [0xe0] .leaf) 0xc1 [0xe1] .leaf)) 0xc2 [0xe2] (.node (.node (.node .leaf 0xc3 [0xe3] .leaf) 0xc4 [0xe4] .leaf) 0xc5 [0xe5] (.node (.node
  .leaf 0xc6 [0xe6] .leaf) 0xc7 [0xe7] .leaf))) 0xc8 [0xe8] (.node (.node (.node (.node .leaf 0xc9 [0xe9] .leaf) 0xca [0xea] .leaf) 0xcb [0xeb] (.node
  (.node .leaf 0xcc [0xec] .leaf) 0xcd [0xed] .leaf)) 0xce [0xee] (.node (.node (.node .leaf 0xcf [0xef] .leaf) 0xd0 [0xf0] .leaf) 0xd1 [0xf1] (.node
  (.node .leaf 0xd2 [0xf2] .leaf) 0xd3 [0xf3] .leaf))))) 0xd4 [0xf4] (.node (.node (.node (.node (.node (.node .leaf 0xd5 [0xf5] .leaf) 0xd6 [0xf6]
  .leaf) 0xd8 [0xf8] (.node (.node .leaf 0xd9 [0xf9] .leaf) 0xda [0xfa] .leaf)) 0xdb [0xfb] (.node (.node (.node .leaf 0xdc [0xfc] .leaf) 0xdd [0xfd]
  .leaf) 0xde [0xfe] (.node (.node .leaf 0xdf [0x73, 0x73] .leaf) 0x100 [0x101] .leaf))) 0x102 [0x103] (.node (.node (.node (.node .leaf 0x104 [0x105]
  .leaf) 0x106 [0x107] .leaf) 0x108 [0x109] (.node (.node .leaf 0x10a [0x10b] .leaf) 0x10c [0x10d] .leaf)) 0x10e [0x10f] (.node (.node (.node .leaf
  0x110 [0x111] .leaf) 0x112 [0x113] .leaf) 0x114 [0x115] (.node (.node .leaf 0x116 [0x117] .leaf) 0x118 [0x119] .leaf)))) 0x11a [0x11b] (.node (.node
  (.node (.node (.node .leaf 0x11c [0x11d] .leaf) 0x11e [0x11f] .leaf) 0x120 [0x121] (.node (.node .leaf 0x122 [0x123] .leaf) 0x124 [0x125] .leaf))
  0x126 [0x127] (.node (.node (.node .leaf 0x128 [0x129] .leaf) 0x12a [0x12b] .leaf) 0x12c [0x12d] (.node (.node .leaf 0x12e [0x12f] .leaf) 0x130
  [0x69, 0x307] .leaf))) 0x132 [0x133] (.node (.node (.node (.node .leaf 0x134 [0x135] .leaf) 0x136 [0x137] .leaf) 0x139 [0x13a] (.node (.node .leaf
  0x13b [0x13c] .leaf) 0x13d [0x13e] .leaf)) 0x13f [0x140] (.node (.node (.node .leaf 0x141 [0x142] .leaf) 0x143 [0x144] .leaf) 0x145 [0x146] (.node
  (.node .leaf 0x147 [0x148] .leaf) 0x149 [0x2bc, 0x6e] .leaf)))))

def cfTree_aaab : Tree (List Nat) :=
  .node (.node (.node (.node (.node (.node (.node .leaf 0x14c [0x14d] .leaf) 0x14e [0x14f] .leaf) 0x150 [0x151] (.node (.node .leaf 0x152 [0x153]
  .leaf) 0x154 [0x155] .leaf)) 0x156 [0x157] (.node (.node (.node .leaf 0x158 [0x159] .leaf) 0x15a [0x15b] .leaf) 0x15c [0x15d] (.node (.node .leaf
  0x15e [0x15f] .leaf) 0x160 [0x161] .leaf))) 0x162 [0x163] (.node (.node (.node (.node .leaf 0x164 [0x165] .leaf) 0x166 [0x167] .leaf) 0x168 [0x169]
  (.node (.node .leaf 0x16a [0x16b] .leaf) 0x16c [0x16d] .leaf)) 0x16e [0x16f] (.node (.node (.node .leaf 0x170 [0x171] .leaf) 0x172 [0x173] .leaf)
  0x174 [0x175] (.node (.node .leaf 0x176 [0x177] .leaf) 0x178 [0xff] .leaf)))) 0x179 [0x17a] (.node (.node (.node (.node (.node .leaf 0x17b [0x17c]
  .leaf) 0x17d [0x17e] .leaf) 0x17f [0x73] (.node (.node .leaf 0x181 [0x253] .leaf) 0x182 [0x183] .leaf)) 0x184 [0x185] (.node (.node (.node .leaf
  0x186 [0x254] .leaf) 0x187 [0x188] .leaf) 0x189 [0x256] (.node (.node .leaf 0x18a [0x257] .leaf) 0x18b [0x18c] .leaf))) 0x18e [0x1dd] (.node (.node
  (.node (.node .leaf 0x18f [0x259] .leaf) 0x190 [0x25b] .leaf) 0x191 [0x192] (.node (.node .leaf 0x193 [0x260] .leaf) 0x194 [0x263] .leaf)) 0x196
  [0x269] (.node (.node (.node .leaf 0x197 [0x268] .leaf) 0x198 [0x199] .leaf) 0x19c [0x26f] (.node (.node .leaf 0x19d [0x272] .leaf) 0x19f [0x275]
  .leaf))))) 0x1a0 [0x1a1] (.node (.node (.node (.node (.node (.node .leaf 0x1a2 [0x1a3] .leaf) 0x1a4 [0x1a5] .leaf) 0x1a6 [0x280] (.node (.node .leaf
  0x1a7 [0x1a8] .leaf) 0x1a9 [0x283] .leaf)) 0x1ac [0x1ad] (.node (.node (.node .leaf 0x1ae [0x288] .leaf) 0x1af [0x1b0] .leaf) 0x1b1 [0x28a] (.node
  (.node .leaf 0x1b2 [0x28b] .leaf) 0x1b3 [0x1b4] .leaf))) 0x1b5 [0x1b6] (.node (.node (.node (.node .leaf 0x1b7 [0x292] .leaf) 0x1b8 [0x1b9] .leaf)
  0x1bc [0x1bd] (.node (.node .leaf 0x1c4 [0x1c6] .leaf) 0x1c5 [0x1c6] .leaf)) 0x1c7 [0x1c9] (.node (.node (.node .leaf 0x1c8 [0x1c9] .leaf) 0x1ca
  [0x1cc] .leaf) 0x1cb [0x1cc] (.node (.node .leaf 0x1cd [0x1ce] .leaf) 0x1cf [0x1d0] .leaf)))) 0x1d1 [0x1d2] (.node (.node (.node (.node (.node .leaf
  0x1d3 [0x1d4] .leaf) 0x1d5 [0x1d6] .leaf) 0x1d7 [0x1d8] (.node (.node .leaf 0x1d9 [0x1da] .leaf) 0x1db [0x1dc] .leaf)) 0x1de [0x1df] (.node (.node
  (.node .leaf 0x1e0 [0x1e1] .leaf) 0x1e2 [0x1e3] .leaf) 0x1e4 [0x1e5] (.node (.node .leaf 0x1e6 [0x1e7] .leaf) 0x1e8 [0x1e9] .leaf))) 0x1ea [0x1eb]
  (.node (.node (.node (.node .leaf 0x1ec [0x1ed] .leaf) 0x1ee [0x1ef] .leaf) 0x1f0 [0x6a, 0x30c] (.node (.node .leaf 0x1f1 [0x1f3] .leaf) 0x1f2
  [0x1f3] .leaf)) 0x1f4 [0x1f5] (.node (.node (.node .leaf 0x1f6 [0x195] .leaf) 0x1f7 [0x1bf] .leaf) 0x1f8 [0x1f9] (.node (.node .leaf 0x1fa [0x1fb]
  .leaf) 0x1fc [0x1fd] .leaf)))))

def cfTree_aaa : Tree (List Nat) := .node cfTree_aaaa 0x14a [0x14b] cfTree_aaab

def cfTree_aaba : Tree (List Nat) :=
  .node (.node (.node (.node (.node (.node (.node .leaf 0x200 [0x201] .leaf) 0x202 [0x203] .leaf) 0x204 [0x205] (.node (.node .leaf 0x206 [0x207]
  .leaf) 0x208 [0x209] .leaf)) 0x20a [0x20b] (.node (.node (.node .leaf 0x20c [0x20d] .leaf) 0x20e [0x20f] .leaf) 0x210 [0x211] (.node (.node .leaf
  0x212 [0x213] .leaf) 0x214 [0x215] .leaf))) 0x216 [0x217] (.node (.node (.node (.node .leaf 0x218 [0x219] .leaf) 0x21a [0x21b] .leaf) 0x21c [0x21d]
  (.node (.node .leaf 0x21e [0x21f] .leaf) 0x220 [0x19e] .leaf)) 0x222 [0x223] (.node (.node (.node .leaf 0x224 [0x225] .leaf) 0x226 [0x227] .leaf)
  0x228 [0x229] (.node (.node .leaf 0x22a [0x22b] .leaf) 0x22c [0x22d] .leaf)))) 0x22e [0x22f] (.node (.node (.node (.node (.node .leaf 0x230 [0x231]
  .leaf) 0x232 [0x233] .leaf) 0x23a [0x2c65] (.node (.node .leaf 0x23b [0x23c] .leaf) 0x23d [0x19a] .leaf)) 0x23e [0x2c66] (.node (.node (.node .leaf
  0x241 [0x242] .leaf) 0x243 [0x180] .leaf) 0x244 [0x289] (.node (.node .leaf 0x245 [0x28c] .leaf) 0x246 [0x247] .leaf))) 0x248 [0x249] (.node (.node
  (.node (.node .leaf 0x24a [0x24b] .leaf) 0x24c [0x24d] .leaf) 0x24e [0x24f] (.node (.node .leaf 0x345 [0x3b9] .leaf) 0x370 [0x371] .leaf)) 0x372
  [0x373] (.node (.node (.node .leaf 0x376 [0x377] .leaf) 0x37f [0x3f3] .leaf) 0x386 [0x3ac] (.node (.node .leaf 0x388 [0x3ad] .leaf) 0x389 [0x3ae]
  .leaf))))) 0x38a [0x3af] (.node (.node (.node (.node (.node (.node .leaf 0x38c [0x3cc] .leaf) 0x38e [0x3cd] .leaf) 0x38f [0x3ce] (.node (.node .leaf
  0x390 [0x3b9, 0x308, 0x301] .leaf) 0x391 [0x3b1] .leaf)) 0x392 [0x3b2] (.node (.node (.node .leaf 0x393 [0x3b3] .leaf) 0x394 [0x3b4] .leaf) 0x395
  [0x3b5] (.node (.node .leaf 0x396 [0x3b6] .leaf) 0x397 [0x3b7] .leaf))) 0x398 [0x3b8] (.node (.node (.node (.node .leaf 0x399 [0x3b9] .leaf) 0x39a
  [0x3ba] .leaf) 0x39b [0x3bb] (.node (.node .leaf 0x39c [0x3bc] .leaf) 0x39d [0x3bd] .leaf)) 0x39e [0x3be] (.node (.node (.node .leaf 0x39f [0x3bf]
  .leaf) 0x3a0 [0x3c0] .leaf) 0x3a1 [0x3c1] (.node (.node .leaf 0x3a3 [0x3c3] .leaf) 0x3a4 [0x3c4] .leaf)))) 0x3a5 [0x3c5] (.node (.node (.node (.node
  (.node .leaf 0x3a6 [0x3c6] .leaf) 0x3a7 [0x3c7] .leaf) 0x3a8 [0x3c8] (.node (.node .leaf 0x3a9 [0x3c9] .leaf) 0x3aa [0x3ca] .leaf)) 0x3ab [0x3cb]
  (.node (.node (.node .leaf 0x3b0 [0x3c5, 0x308, 0x301] .leaf) 0x3c2 [0x3c3] .leaf) 0x3cf [0x3d7] (.node (.node .leaf 0x3d0 [0x3b2] .leaf) 0x3d1
  [0x3b8] .leaf))) 0x3d5 [0x3c6] (.node (.node (.node (.node .leaf 0x3d6 [0x3c0] .leaf) 0x3d8 [0x3d9] .leaf) 0x3da [0x3db] (.node (.node .leaf 0x3dc
  [0x3dd] .leaf) 0x3de [0x3df] .leaf)) 0x3e0 [0x3e1] (.node (.node (.node .leaf 0x3e2 [0x3e3] .leaf) 0x3e4 [0x3e5] .leaf) 0x3e6 [0x3e7] (.node (.node
  .leaf 0x3e8 [0x3e9] .leaf) 0x3ea [0x3eb] .leaf)))))

def cfTree_aabb : Tree (List Nat) :=
  .node (.node (.node (.node (.node (.node (.node .leaf 0x3ee [0x3ef] .leaf) 0x3f0 [0x3ba] .leaf) 0x3f1 [0x3c1] (.node (.node .leaf 0x3f4 [0x3b8]
  .leaf) 0x3f5 [0x3b5] .leaf)) 0x3f7 [0x3f8] (.node (.node (.node .leaf 0x3f9 [0x3f2] .leaf) 0x3fa [0x3fb] .leaf) 0x3fd [0x37b] (.node (.node .leaf
  0x3fe [0x37c] .leaf) 0x3ff [0x37d] .leaf))) 0x400 [0x450] (.node (.node (.node (.node .leaf 0x401 [0x451] .leaf) 0x402 [0x452] .leaf) 0x403 [0x453]
  (.node (.node .leaf 0x404 [0x454] .leaf) 0x405 [0x455] .leaf)) 0x406 [0x456] (.node (.node (.node .leaf 0x407 [0x457] .leaf) 0x408 [0x458] .leaf)
  0x409 [0x459] (.node (.node .leaf 0x40a [0x45a] .leaf) 0x40b [0x45b] .leaf)))) 0x40c [0x45c] (.node (.node (.node (.node (.node .leaf 0x40d [0x45d]
  .leaf) 0x40e [0x45e] .leaf) 0x40f [0x45f] (.node (.node .leaf 0x410 [0x430] .leaf) 0x411 [0x431] .leaf)) 0x412 [0x432] (.node (.node (.node .leaf
  0x413 [0x433] .leaf) 0x414 [0x434] .leaf) 0x415 [0x435] (.node (.node .leaf 0x416 [0x436] .leaf) 0x417 [0x437] .leaf))) 0x418 [0x438] (.node (.node
  (.node (.node .leaf 0x419 [0x439] .leaf) 0x41a [0x43a] .leaf) 0x41b [0x43b] (.node (.node .leaf 0x41c [0x43c] .leaf) 0x41d [0x43d] .leaf)) 0x41e
  [0x43e] (.node (.node (.node .leaf 0x41f [0x43f] .leaf) 0x420 [0x440] .leaf) 0x421 [0x441] (.node (.node .leaf 0x422 [0x442] .leaf) 0x423 [0x443]
  .leaf))))) 0x424 [0x444] (.node (.node (.node (.node (.node (.node .leaf 0x425 [0x445] .leaf) 0x426 [0x446] .leaf) 0x427 [0x447] (.node (.node .leaf
  0x428 [0x448] .leaf) 0x429 [0x449] .leaf)) 0x42a [0x44a] (.node (.node (.node .leaf 0x42b [0x44b] .leaf) 0x42c [0x44c] .leaf) 0x42d [0x44d] (.node
  (.node .leaf 0x42e [0x44e] .leaf) 0x42f [0x44f] .leaf))) 0x460 [0x461] (.node (.node (.node (.node .leaf 0x462 [0x463] .leaf) 0x464 [0x465] .leaf)
  0x466 [0x467] (.node (.node .leaf 0x468 [0x469] .leaf) 0x46a [0x46b] .leaf)) 0x46c [0x46d] (.node (.node (.node .leaf 0x46e [0x46f] .leaf) 0x470
  [0x471] .leaf) 0x472 [0x473] (.node (.node .leaf 0x474 [0x475] .leaf) 0x476 [0x477] .leaf)))) 0x478 [0x479] (.node (.node (.node (.node (.node .leaf
  0x47a [0x47b] .leaf) 0x47c [0x47d] .leaf) 0x47e [0x47f] (.node (.node .leaf 0x480 [0x481] .leaf) 0x48a [0x48b] .leaf)) 0x48c [0x48d] (.node (.node
  (.node .leaf 0x48e [0x48f] .leaf) 0x490 [0x491] .leaf) 0x492 [0x493] (.node (.node .leaf 0x494 [0x495] .leaf) 0x496 [0x497] .leaf))) 0x498 [0x499]
  (.node (.node (.node (.node .leaf 0x49a [0x49b] .leaf) 0x49c [0x49d] .leaf) 0x49e [0x49f] (.node (.node .leaf 0x4a0 [0x4a1] .leaf) 0x4a2 [0x4a3]
  .leaf)) 0x4a4 [0x4a5] (.node (.node (.node .leaf 0x4a6 [0x4a7] .leaf) 0x4a8 [0x4a9] .leaf) 0x4aa [0x4ab] (.node .leaf 0x4ac [0x4ad] .leaf)))))

def cfTree_aab : Tree (List Nat) := .node cfTree_aaba 0x3ec [0x3ed] cfTree_aabb

def cfTree_aa : Tree (List Nat) := .node cfTree_aaa 0x1fe [0x1ff] cfTree_aab

def cfTree_abaa : Tree (List Nat) :=
  .node (.node (.node (.node (.node (.node (.node .leaf 0x4b0 [0x4b1] .leaf) 0x4b2 [0x4b3] .leaf) 0x4b4 [0x4b5] (.node (.node .leaf 0x4b6 [0x4b7]
  .leaf) 0x4b8 [0x4b9] .leaf)) 0x4ba [0x4bb] (.node (.node (.node .leaf 0x4bc [0x4bd] .leaf) 0x4be [0x4bf] .leaf) 0x4c0 [0x4cf] (.node (.node .leaf
  0x4c1 [0x4c2] .leaf) 0x4c3 [0x4c4] .leaf))) 0x4c5 [0x4c6] (.node (.node (.node (.node .leaf 0x4c7 [0x4c8] .leaf) 0x4c9 [0x4ca] .leaf) 0x4cb [0x4cc]
  (.node (.node .leaf 0x4cd [0x4ce] .leaf) 0x4d0 [0x4d1] .leaf)) 0x4d2 [0x4d3] (.node (.node (.node .leaf 0x4d4 [0x4d5] .leaf) 0x4d6 [0x4d7] .leaf)
  0x4d8 [0x4d9] (.node (.node .leaf 0x4da [0x4db] .leaf) 0x4dc [0x4dd] .leaf)))) 0x4de [0x4df] (.node (.node (.node (.node (.node .leaf 0x4e0 [0x4e1]
  .leaf) 0x4e2 [0x4e3] .leaf) 0x4e4 [0x4e5] (.node (.node .leaf 0x4e6 [0x4e7] .leaf) 0x4e8 [0x4e9] .leaf)) 0x4ea [0x4eb] (.node (.node (.node .leaf
  0x4ec [0x4ed] .leaf) 0x4ee [0x4ef] .leaf) 0x4f0 [0x4f1] (.node (.node .leaf 0x4f2 [0x4f3] .leaf) 0x4f4 [0x4f5] .leaf))) 0x4f6 [0x4f7] (.node (.node
  (.node (.node .leaf 0x4f8 [0x4f9] .leaf) 0x4fa [0x4fb] .leaf) 0x4fc [0x4fd] (.node (.node .leaf 0x4fe [0x4ff] .leaf) 0x500 [0x501] .leaf)) 0x502
  [0x503] (.node (.node (.node .leaf 0x504 [0x505] .leaf) 0x506 [0x507] .leaf) 0x508 [0x509] (.node (.node .leaf 0x50a [0x50b] .leaf) 0x50c [0x50d]
  .leaf))))) 0x50e [0x50f] (.node (.node (.node (.node (.node (.node .leaf 0x510 [0x511] .leaf) 0x512 [0x513] .leaf) 0x514 [0x515] (.node (.node .leaf
  0x516 [0x517] .leaf) 0x518 [0x519] .leaf)) 0x51a [0x51b] (.node (.node (.node .leaf 0x51c [0x51d] .leaf) 0x51e [0x51f] .leaf) 0x520 [0x521] (.node
  (.node .leaf 0x522 [0x523] .leaf) 0x524 [0x525] .leaf))) 0x526 [0x527] (.node (.node (.node (.node .leaf 0x528 [0x529] .leaf) 0x52a [0x52b] .leaf)
  0x52c [0x52d] (.node (.node .leaf 0x52e [0x52f] .leaf) 0x531 [0x561] .leaf)) 0x532 [0x562] (.node (.node (.node .leaf 0x533 [0x563] .leaf) 0x534
  [0x564] .leaf) 0x535 [0x565] (.node (.node .leaf 0x536 [0x566] .leaf) 0x537 [0x567] .leaf)))) 0x538 [0x568] (.node (.node (.node (.node (.node .leaf
  0x539 [0x569] .leaf) 0x53a [0x56a] .leaf) 0x53b [0x56b] (.node (.node .leaf 0x53c [0x56c] .leaf) 0x53d [0x56d] .leaf)) 0x53e [0x56e] (.node (.node
  (.node .leaf 0x53f [0x56f] .leaf) 0x540 [0x570] .leaf) 0x541 [0x571] (.node (.node .leaf 0x542 [0x572] .leaf) 0x543 [0x573] .leaf))) 0x544 [0x574]
  (.node (.node (.node (.node .leaf 0x545 [0x575] .leaf) 0x546 [0x576] .leaf) 0x547 [0x577] (.node (.node .leaf 0x548 [0x578] .leaf) 0x549 [0x579]
  .leaf)) 0x54a [0x57a] (.node (.node (.node .leaf 0x54b [0x57b] .leaf) 0x54c [0x57c] .leaf) 0x54d [0x57d] (.node (.node .leaf 0x54e [0x57e] .leaf)
  0x54f [0x57f] .leaf)))))

def cfTree_abab : Tree (List Nat) :=
  .node (.node (.node (.node (.node (.node (.node .leaf 0x551 [0x581] .leaf) 0x552 [0x582] .leaf) 0x553 [0x583] (.node (.node .leaf 0x554 [0x584]
  .leaf) 0x555 [0x585] .leaf)) 0x556 [0x586] (.node (.node (.node .leaf 0x587 [0x565, 0x582] .leaf) 0x10a0 [0x2d00] .leaf) 0x10a1 [0x2d01] (.node
  (.node .leaf 0x10a2 [0x2d02] .leaf) 0x10a3 [0x2d03] .leaf))) 0x10a4 [0x2d04] (.node (.node (.node (.node .leaf 0x10a5 [0x2d05] .leaf) 0x10a6
  [0x2d06] .leaf) 0x10a7 [0x2d07] (.node (.node .leaf 0x10a8 [0x2d08] .leaf) 0x10a9 [0x2d09] .leaf)) 0x10aa [0x2d0a] (.node (.node (.node .leaf 0x10ab
  [0x2d0b] .leaf) 0x10ac [0x2d0c] .leaf) 0x10ad [0x2d0d] (.node (.node .leaf 0x10ae [0x2d0e] .leaf) 0x10af [0x2d0f] .leaf)))) 0x10b0 [0x2d10] (.node
  (.node (.node (.node (.node .leaf 0x10b1 [0x2d11] .leaf) 0x10b2 [0x2d12] .leaf) 0x10b3 [0x2d13] (.node (.node .leaf 0x10b4 [0x2d14] .leaf) 0x10b5
  [0x2d15] .leaf)) 0x10b6 [0x2d16] (.node (.node (.node .leaf 0x10b7 [0x2d17] .leaf) 0x10b8 [0x2d18] .leaf) 0x10b9 [0x2d19] (.node (.node .leaf 0x10ba
  [0x2d1a] .leaf) 0x10bb [0x2d1b] .leaf))) 0x10bc [0x2d1c] (.node (.node (.node (.node .leaf 0x10bd [0x2d1d] .leaf) 0x10be [0x2d1e] .leaf) 0x10bf
  [0x2d1f] (.node (.node .leaf 0x10c0 [0x2d20] .leaf) 0x10c1 [0x2d21] .leaf)) 0x10c2 [0x2d22] (.node (.node (.node .leaf 0x10c3 [0x2d23] .leaf) 0x10c4
  [0x2d24] .leaf) 0x10c5 [0x2d25] (.node (.node .leaf 0x10c7 [0x2d27] .leaf) 0x10cd [0x2d2d] .leaf))))) 0x13f8 [0x13f0] (.node (.node (.node (.node
  (.node (.node .leaf 0x13f9 [0x13f1] .leaf) 0x13fa [0x13f2] .leaf) 0x13fb [0x13f3] (.node (.node .leaf 0x13fc [0x13f4] .leaf) 0x13fd [0x13f5] .leaf))
  0x1c80 [0x432] (.node (.node (.node .leaf 0x1c81 [0x434] .leaf) 0x1c82 [0x43e] .leaf) 0x1c83 [0x441] (.node (.node .leaf 0x1c84 [0x442] .leaf)
  0x1c85 [0x442] .leaf))) 0x1c86 [0x44a] (.node (.node (.node (.node .leaf 0x1c87 [0x463] .leaf) 0x1c88 [0xa64b] .leaf) 0x1c90 [0x10d0] (.node (.node
  .leaf 0x1c91 [0x10d1] .leaf) 0x1c92 [0x10d2] .leaf)) 0x1c93 [0x10d3] (.node (.node (.node .leaf 0x1c94 [0x10d4] .leaf) 0x1c95 [0x10d5] .leaf) 0x1c96
  [0x10d6] (.node (.node .leaf 0x1c97 [0x10d7] .leaf) 0x1c98 [0x10d8] .leaf)))) 0x1c99 [0x10d9] (.node (.node (.node (.node (.node .leaf 0x1c9a
  [0x10da] .leaf) 0x1c9b [0x10db] .leaf) 0x1c9c [0x10dc] (.node (.node .leaf 0x1c9d [0x10dd] .leaf) 0x1c9e [0x10de] .leaf)) 0x1c9f [0x10df] (.node
  (.node (.node .leaf 0x1ca0 [0x10e0] .leaf) 0x1ca1 [0x10e1] .leaf) 0x1ca2 [0x10e2] (.node (.node .leaf 0x1ca3 [0x10e3] .leaf) 0x1ca4 [0x10e4]
  .leaf))) 0x1ca5 [0x10e5] (.node (.node (.node (.node .leaf 0x1ca6 [0x10e6] .leaf) 0x1ca7 [0x10e7] .leaf) 0x1ca8 [0x10e8] (.node (.node .leaf 0x1ca9
  [0x10e9] .leaf) 0x1caa [0x10ea] .leaf)) 0x1cab [0x10eb] (.node (.node (.node .leaf 0x1cac [0x10ec] .leaf) 0x1cad [0x10ed] .leaf) 0x1cae [0x10ee]
  (.node (.node .leaf 0x1caf [0x10ef] .leaf) 0x1cb0 [0x10f0] .leaf)))))

def cfTree_aba : Tree (List Nat) := .node cfTree_abaa 0x550 [0x580] cfTree_abab

def cfTree_abba : Tree (List Nat) :=
  .node (.node (.node (.node (.node (.node (.node .leaf 0x1cb2 [0x10f2] .leaf) 0x1cb3 [0x10f3] .leaf) 0x1cb4 [0x10f4] (.node (.node .leaf 0x1cb5
  [0x10f5] .leaf) 0x1cb6 [0x10f6] .leaf)) 0x1cb7 [0x10f7] (.node (.node (.node .leaf 0x1cb8 [0x10f8] .leaf) 0x1cb9 [0x10f9] .leaf) 0x1cba [0x10fa]
  (.node (.node .leaf 0x1cbd [0x10fd] .leaf) 0x1cbe [0x10fe] .leaf))) 0x1cbf [0x10ff] (.node (.node (.node (.node .leaf 0x1e00 [0x1e01] .leaf) 0x1e02
  [0x1e03] .leaf) 0x1e04 [0x1e05] (.node (.node .leaf 0x1e06 [0x1e07] .leaf) 0x1e08 [0x1e09] .leaf)) 0x1e0a [0x1e0b] (.node (.node (.node .leaf 0x1e0c
  [0x1e0d] .leaf) 0x1e0e [0x1e0f] .leaf) 0x1e10 [0x1e11] (.node (.node .leaf 0x1e12 [0x1e13] .leaf) 0x1e14 [0x1e15] .leaf)))) 0x1e16 [0x1e17] (.node
  (.node (.node (.node (.node .leaf 0x1e18 [0x1e19] .leaf) 0x1e1a [0x1e1b] .leaf) 0x1e1c [0x1e1d] (.node (.node .leaf 0x1e1e [0x1e1f] .leaf) 0x1e20
  [0x1e21] .leaf)) 0x1e22 [0x1e23] (.node (.node (.node .leaf 0x1e24 [0x1e25] .leaf) 0x1e26 [0x1e27] .leaf) 0x1e28 [0x1e29] (.node (.node .leaf 0x1e2a
  [0x1e2b] .leaf) 0x1e2c [0x1e2d] .leaf))) 0x1e2e [0x1e2f] (.node (.node (.node (.node .leaf 0x1e30 [0x1e31] .leaf) 0x1e32 [0x1e33] .leaf) 0x1e34
  [0x1e35] (.node (.node .leaf 0x1e36 [0x1e37] .leaf) 0x1e38 [0x1e39] .leaf)) 0x1e3a [0x1e3b] (.node (.node (.node .leaf 0x1e3c [0x1e3d] .leaf) 0x1e3e
  [0x1e3f] .leaf) 0x1e40 [0x1e41] (.node (.node .leaf 0x1e42 [0x1e43] .leaf) 0x1e44 [0x1e45] .leaf))))) 0x1e46 [0x1e47] (.node (.node (.node (.node
  (.node (.node .leaf 0x1e48 [0x1e49] .leaf) 0x1e4a [0x1e4b] .leaf) 0x1e4c [0x1e4d] (.node (.node .leaf 0x1e4e [0x1e4f] .leaf) 0x1e50 [0x1e51] .leaf))
  0x1e52 [0x1e53] (.node (.node (.node .leaf 0x1e54 [0x1e55] .leaf) 0x1e56 [0x1e57] .leaf) 0x1e58 [0x1e59] (.node (.node .leaf 0x1e5a [0x1e5b] .leaf)
  0x1e5c [0x1e5d] .leaf))) 0x1e5e [0x1e5f] (.node (.node (.node (.node .leaf 0x1e60 [0x1e61] .leaf) 0x1e62 [0x1e63] .leaf) 0x1e64 [0x1e65] (.node
  (.node .leaf 0x1e66 [0x1e67] .leaf) 0x1e68 [0x1e69] .leaf)) 0x1e6a [0x1e6b] (.node (.node (.node .leaf 0x1e6c [0x1e6d] .leaf) 0x1e6e [0x1e6f] .leaf)
  0x1e70 [0x1e71] (.node (.node .leaf 0x1e72 [0x1e73] .leaf) 0x1e74 [0x1e75] .leaf)))) 0x1e76 [0x1e77] (.node (.node (.node (.node (.node .leaf 0x1e78
  [0x1e79] .leaf) 0x1e7a [0x1e7b] .leaf) 0x1e7c [0x1e7d] (.node (.node .leaf 0x1e7e [0x1e7f] .leaf) 0x1e80 [0x1e81] .leaf)) 0x1e82 [0x1e83] (.node
  (.node (.node .leaf 0x1e84 [0x1e85] .leaf) 0x1e86 [0x1e87] .leaf) 0x1e88 [0x1e89] (.node (.node .leaf 0x1e8a [0x1e8b] .leaf) 0x1e8c [0x1e8d]
  .leaf))) 0x1e8e [0x1e8f] (.node (.node (.node (.node .leaf 0x1e90 [0x1e91] .leaf) 0x1e92 [0x1e93] .leaf) 0x1e94 [0x1e95] (.node (.node .leaf 0x1e96
  [0x68, 0x331] .leaf) 0x1e97 [0x74, 0x308] .leaf)) 0x1e98 [0x77, 0x30a] (.node (.node (.node .leaf 0x1e99 [0x79, 0x30a] .leaf) 0x1e9a [0x61, 0x2be]
  .leaf) 0x1e9b [0x1e61] (.node (.node .leaf 0x1e9e [0x73, 0x73] .leaf) 0x1ea0 [0x1ea1] .leaf)))))

def cfTree_abbb : Tree (List Nat) :=
  .node (.node (.node (.node (.node (.node (.node .leaf 0x1ea4 [0x1ea5] .leaf) 0x1ea6 [0x1ea7] .leaf) 0x1ea8 [0x1ea9] (.node (.node .leaf 0x1eaa
  [0x1eab] .leaf) 0x1eac [0x1ead] .leaf)) 0x1eae [0x1eaf] (.node (.node (.node .leaf 0x1eb0 [0x1eb1] .leaf) 0x1eb2 [0x1eb3] .leaf) 0x1eb4 [0x1eb5]
  (.node (.node .leaf 0x1eb6 [0x1eb7] .leaf) 0x1eb8 [0x1eb9] .leaf))) 0x1eba [0x1ebb] (.node (.node (.node (.node .leaf 0x1ebc [0x1ebd] .leaf) 0x1ebe
  [0x1ebf] .leaf) 0x1ec0 [0x1ec1] (.node (.node .leaf 0x1ec2 [0x1ec3] .leaf) 0x1ec4 [0x1ec5] .leaf)) 0x1ec6 [0x1ec7] (.node (.node (.node .leaf 0x1ec8
  [0x1ec9] .leaf) 0x1eca [0x1ecb] .leaf) 0x1ecc [0x1ecd] (.node (.node .leaf 0x1ece [0x1ecf] .leaf) 0x1ed0 [0x1ed1] .leaf)))) 0x1ed2 [0x1ed3] (.node
  (.node (.node (.node (.node .leaf 0x1ed4 [0x1ed5] .leaf) 0x1ed6 [0x1ed7] .leaf) 0x1ed8 [0x1ed9] (.node (.node .leaf 0x1eda [0x1edb] .leaf) 0x1edc
  [0x1edd] .leaf)) 0x1ede [0x1edf] (.node (.node (.node .leaf 0x1ee0 [0x1ee1] .leaf) 0x1ee2 [0x1ee3] .leaf) 0x1ee4 [0x1ee5] (.node (.node .leaf 0x1ee6
  [0x1ee7] .leaf) 0x1ee8 [0x1ee9] .leaf))) 0x1eea [0x1eeb] (.node (.node (.node (.node .leaf 0x1eec [0x1eed] .leaf) 0x1eee [0x1eef] .leaf) 0x1ef0
  [0x1ef1] (.node (.node .leaf 0x1ef2 [0x1ef3] .leaf) 0x1ef4 [0x1ef5] .leaf)) 0x1ef6 [0x1ef7] (.node (.node (.node .leaf 0x1ef8 [0x1ef9] .leaf) 0x1efa
  [0x1efb] .leaf) 0x1efc [0x1efd] (.node (.node .leaf 0x1efe [0x1eff] .leaf) 0x1f08 [0x1f00] .leaf))))) 0x1f09 [0x1f01] (.node (.node (.node (.node
  (.node (.node .leaf 0x1f0a [0x1f02] .leaf) 0x1f0b [0x1f03] .leaf) 0x1f0c [0x1f04] (.node (.node .leaf 0x1f0d [0x1f05] .leaf) 0x1f0e [0x1f06] .leaf))
  0x1f0f [0x1f07] (.node (.node (.node .leaf 0x1f18 [0x1f10] .leaf) 0x1f19 [0x1f11] .leaf) 0x1f1a [0x1f12] (.node (.node .leaf 0x1f1b [0x1f13] .leaf)
  0x1f1c [0x1f14] .leaf))) 0x1f1d [0x1f15] (.node (.node (.node (.node .leaf 0x1f28 [0x1f20] .leaf) 0x1f29 [0x1f21] .leaf) 0x1f2a [0x1f22] (.node
  (.node .leaf 0x1f2b [0x1f23] .leaf) 0x1f2c [0x1f24] .leaf)) 0x1f2d [0x1f25] (.node (.node (.node .leaf 0x1f2e [0x1f26] .leaf) 0x1f2f [0x1f27] .leaf)
  0x1f38 [0x1f30] (.node (.node .leaf 0x1f39 [0x1f31] .leaf) 0x1f3a [0x1f32] .leaf)))) 0x1f3b [0x1f33] (.node (.node (.node (.node (.node .leaf 0x1f3c
  [0x1f34] .leaf) 0x1f3d [0x1f35] .leaf) 0x1f3e [0x1f36] (.node (.node .leaf 0x1f3f [0x1f37] .leaf) 0x1f48 [0x1f40] .leaf)) 0x1f49 [0x1f41] (.node
  (.node (.node .leaf 0x1f4a [0x1f42] .leaf) 0x1f4b [0x1f43] .leaf) 0x1f4c [0x1f44] (.node (.node .leaf 0x1f4d [0x1f45] .leaf) 0x1f50 [0x3c5, 0x313]
  .leaf))) 0x1f52 [0x3c5, 0x313, 0x300] (.node (.node (.node (.node .leaf 0x1f54 [0x3c5, 0x313, 0x301] .leaf) 0x1f56 [0x3c5, 0x313, 0x342] .leaf)
  0x1f59 [0x1f51] (.node (.node .leaf 0x1f5b [0x1f53] .leaf) 0x1f5d [0x1f55] .leaf)) 0x1f5f [0x1f57] (.node (.node (.node .leaf 0x1f68 [0x1f60] .leaf)
  0x1f69 [0x1f61] .leaf) 0x1f6a [0x1f62] (.node .leaf 0x1f6b [0x1f63] .leaf)))))

def cfTree_abb : Tree (List Nat) := .node cfTree_abba 0x1ea2 [0x1ea3] cfTree_abbb

def cfTree_ab : Tree (List Nat) := .node cfTree_aba 0x1cb1 [0x10f1] cfTree_abb

def cfTree_a : Tree (List Nat) := .node cfTree_aa 0x4ae [0x4af] cfTree_ab

def cfTree_baaa : Tree (List Nat) :=
  .node (.node (.node (.node (.node (.node (.node .leaf 0x1f6d [0x1f65] .leaf) 0x1f6e [0x1f66] .leaf) 0x1f6f [0x1f67] (.node (.node .leaf 0x1f80
  [0x1f00, 0x3b9] .leaf) 0x1f81 [0x1f01, 0x3b9] .leaf)) 0x1f82 [0x1f02, 0x3b9] (.node (.node (.node .leaf 0x1f83 [0x1f03, 0x3b9] .leaf) 0x1f84
  [0x1f04, 0x3b9] .leaf) 0x1f85 [0x1f05, 0x3b9] (.node (.node .leaf 0x1f86 [0x1f06, 0x3b9] .leaf) 0x1f87 [0x1f07, 0x3b9] .leaf))) 0x1f88 [0x1f00,
  0x3b9] (.node (.node (.node (.node .leaf 0x1f89 [0x1f01, 0x3b9] .leaf) 0x1f8a [0x1f02, 0x3b9] .leaf) 0x1f8b [0x1f03, 0x3b9] (.node (.node .leaf
  0x1f8c [0x1f04, 0x3b9] .leaf) 0x1f8d [0x1f05, 0x3b9] .leaf)) 0x1f8e [0x1f06, 0x3b9] (.node (.node (.node .leaf 0x1f8f [0x1f07, 0x3b9] .leaf) 0x1f90
  [0x1f20, 0x3b9] .leaf) 0x1f91 [0x1f21, 0x3b9] (.node (.node .leaf 0x1f92 [0x1f22, 0x3b9] .leaf) 0x1f93 [0x1f23, 0x3b9] .leaf)))) 0x1f94 [0x1f24,
  0x3b9] (.node (.node (.node (.node (.node .leaf 0x1f95 [0x1f25, 0x3b9] .leaf) 0x1f96 [0x1f26, 0x3b9] .leaf) 0x1f97 [0x1f27, 0x3b9] (.node (.node
  .leaf 0x1f98 [0x1f20, 0x3b9] .leaf) 0x1f99 [0x1f21, 0x3b9] .leaf)) 0x1f9a [0x1f22, 0x3b9] (.node (.node (.node .leaf 0x1f9b [0x1f23, 0x3b9] .leaf)
  0x1f9c [0x1f24, 0x3b9] .leaf) 0x1f9d [0x1f25, 0x3b9] (.node (.node .leaf 0x1f9e [0x1f26, 0x3b9] .leaf) 0x1f9f [0x1f27, 0x3b9] .leaf))) 0x1fa0
  [0x1f60, 0x3b9] (.node (.node (.node (.node .leaf 0x1fa1 [0x1f61, 0x3b9] .leaf) 0x1fa2 [0x1f62, 0x3b9] .leaf) 0x1fa3 [0x1f63, 0x3b9] (.node (.node
  .leaf 0x1fa4 [0x1f64, 0x3b9] .leaf) 0x1fa5 [0x1f65, 0x3b9] .leaf)) 0x1fa6 [0x1f66, 0x3b9] (.node (.node (.node .leaf 0x1fa7 [0x1f67, 0x3b9] .leaf)
  0x1fa8 [0x1f60, 0x3b9] .leaf) 0x1fa9 [0x1f61, 0x3b9] (.node (.node .leaf 0x1faa [0x1f62, 0x3b9] .leaf) 0x1fab [0x1f63, 0x3b9] .leaf))))) 0x1fac
  [0x1f64, 0x3b9] (.node (.node (.node (.node (.node (.node .leaf 0x1fad [0x1f65, 0x3b9] .leaf) 0x1fae [0x1f66, 0x3b9] .leaf) 0x1faf [0x1f67, 0x3b9]
  (.node (.node .leaf 0x1fb2 [0x1f70, 0x3b9] .leaf) 0x1fb3 [0x3b1, 0x3b9] .leaf)) 0x1fb4 [0x3ac, 0x3b9] (.node (.node (.node .leaf 0x1fb6 [0x3b1,
  0x342] .leaf) 0x1fb7 [0x3b1, 0x342, 0x3b9] .leaf) 0x1fb8 [0x1fb0] (.node (.node .leaf 0x1fb9 [0x1fb1] .leaf) 0x1fba [0x1f70] .leaf))) 0x1fbb
  [0x1f71] (.node (.node (.node (.node .leaf 0x1fbc [0x3b1, 0x3b9] .leaf) 0x1fbe [0x3b9] .leaf) 0x1fc2 [0x1f74, 0x3b9] (.node (.node .leaf 0x1fc3
  [0x3b7, 0x3b9] .leaf) 0x1fc4 [0x3ae, 0x3b9] .leaf)) 0x1fc6 [0x3b7, 0x342] (.node (.node (.node .leaf 0x1fc7 [0x3b7, 0x342, 0x3b9] .leaf) 0x1fc8
  [0x1f72] .leaf) 0x1fc9 [0x1f73] (.node (.node .leaf 0x1fca [0x1f74] .leaf) 0x1fcb [0x1f75] .leaf)))) 0x1fcc [0x3b7, 0x3b9] (.node (.node (.node
  (.node (.node .leaf 0x1fd2 [0x3b9, 0x308, 0x300] .leaf) 0x1fd3 [0x3b9, 0x308, 0x301] .leaf) 0x1fd6 [0x3b9, 0x342] (.node (.node .leaf 0x1fd7 [0x3b9,
  0x308, 0x342] .leaf) 0x1fd8 [0x1fd0] .leaf)) 0x1fd9 [0x1fd1] (.node (.node (.node .leaf 0x1fda [0x1f76] .leaf) 0x1fdb [0x1f77] .leaf) 0x1fe2 [0x3c5,
  0x308, 0x300] (.node (.node .leaf 0x1fe3 [0x3c5, 0x308, 0x301] .leaf) 0x1fe4 [0x3c1, 0x313] .leaf))) 0x1fe6 [0x3c5, 0x342] (.node (.node (.node
  (.node .leaf 0x1fe7 [0x3c5, 0x308, 0x342] .leaf) 0x1fe8 [0x1fe0] .leaf) 0x1fe9 [0x1fe1] (.node (.node .leaf 0x1fea [0x1f7a] .leaf) 0x1feb [0x1f7b]
  .leaf)) 0x1fec [0x1fe5] (.node (.node (.node .leaf 0x1ff2 [0x1f7c, 0x3b9] .leaf) 0x1ff3 [0x3c9, 0x3b9] .leaf) 0x1ff4 [0x3ce, 0x3b9] (.node (.node
  .leaf 0x1ff6 [0x3c9, 0x342] .leaf) 0x1ff7 [0x3c9, 0x342, 0x3b9] .leaf)))))

def cfTree_baab : Tree (List Nat) :=
  .node (.node (.node (.node (.node (.node (.node .leaf 0x1ff9 [0x1f79] .leaf) 0x1ffa [0x1f7c] .leaf) 0x1ffb [0x1f7d] (.node (.node .leaf 0x1ffc
  [0x3c9, 0x3b9] .leaf) 0x2126 [0x3c9] .leaf)) 0x212a [0x6b] (.node (.node (.node .leaf 0x212b [0xe5] .leaf) 0x2132 [0x214e] .leaf) 0x2160 [0x2170]
  (.node (.node .leaf 0x2161 [0x2171] .leaf) 0x2162 [0x2172] .leaf))) 0x2163 [0x2173] (.node (.node (.node (.node .leaf 0x2164 [0x2174] .leaf) 0x2165
  [0x2175] .leaf) 0x2166 [0x2176] (.node (.node .leaf 0x2167 [0x2177] .leaf) 0x2168 [0x2178] .leaf)) 0x2169 [0x2179] (.node (.node (.node .leaf 0x216a
  [0x217a] .leaf) 0x216b [0x217b] .leaf) 0x216c [0x217c] (.node (.node .leaf 0x216d [0x217d] .leaf) 0x216e [0x217e] .leaf)))) 0x216f [0x217f] (.node
  (.node (.node (.node (.node .leaf 0x2183 [0x2184] .leaf) 0x24b6 [0x24d0] .leaf) 0x24b7 [0x24d1] (.node (.node .leaf 0x24b8 [0x24d2] .leaf) 0x24b9
  [0x24d3] .leaf)) 0x24ba [0x24d4] (.node (.node (.node .leaf 0x24bb [0x24d5] .leaf) 0x24bc [0x24d6] .leaf) 0x24bd [0x24d7] (.node (.node .leaf 0x24be
  [0x24d8] .leaf) 0x24bf [0x24d9] .leaf))) 0x24c0 [0x24da] (.node (.node (.node (.node .leaf 0x24c1 [0x24db] .leaf) 0x24c2 [0x24dc] .leaf) 0x24c3
  [0x24dd] (.node (.node .leaf 0x24c4 [0x24de] .leaf) 0x24c5 [0x24df] .leaf)) 0x24c6 [0x24e0] (.node (.node (.node .leaf 0x24c7 [0x24e1] .leaf) 0x24c8
  [0x24e2] .leaf) 0x24c9 [0x24e3] (.node (.node .leaf 0x24ca [0x24e4] .leaf) 0x24cb [0x24e5] .leaf))))) 0x24cc [0x24e6] (.node (.node (.node (.node
  (.node (.node .leaf 0x24cd [0x24e7] .leaf) 0x24ce [0x24e8] .leaf) 0x24cf [0x24e9] (.node (.node .leaf 0x2c00 [0x2c30] .leaf) 0x2c01 [0x2c31] .leaf))
  0x2c02 [0x2c32] (.node (.node (.node .leaf 0x2c03 [0x2c33] .leaf) 0x2c04 [0x2c34] .leaf) 0x2c05 [0x2c35] (.node (.node .leaf 0x2c06 [0x2c36] .leaf)
  0x2c07 [0x2c37] .leaf))) 0x2c08 [0x2c38] (.node (.node (.node (.node .leaf 0x2c09 [0x2c39] .leaf) 0x2c0a [0x2c3a] .leaf) 0x2c0b [0x2c3b] (.node
  (.node .leaf 0x2c0c [0x2c3c] .leaf) 0x2c0d [0x2c3d] .leaf)) 0x2c0e [0x2c3e] (.node (.node (.node .leaf 0x2c0f [0x2c3f] .leaf) 0x2c10 [0x2c40] .leaf)
  0x2c11 [0x2c41] (.node (.node .leaf 0x2c12 [0x2c42] .leaf) 0x2c13 [0x2c43] .leaf)))) 0x2c14 [0x2c44] (.node (.node (.node (.node (.node .leaf 0x2c15
  [0x2c45] .leaf) 0x2c16 [0x2c46] .leaf) 0x2c17 [0x2c47] (.node (.node .leaf 0x2c18 [0x2c48] .leaf) 0x2c19 [0x2c49] .leaf)) 0x2c1a [0x2c4a] (.node
  (.node (.node .leaf 0x2c1b [0x2c4b] .leaf) 0x2c1c [0x2c4c] .leaf) 0x2c1d [0x2c4d] (.node (.node .leaf 0x2c1e [0x2c4e] .leaf) 0x2c1f [0x2c4f]
  .leaf))) 0x2c20 [0x2c50] (.node (.node (.node (.node .leaf 0x2c21 [0x2c51] .leaf) 0x2c22 [0x2c52] .leaf) 0x2c23 [0x2c53] (.node (.node .leaf 0x2c24
  [0x2c54] .leaf) 0x2c25 [0x2c55] .leaf)) 0x2c26 [0x2c56] (.node (.node (.node .leaf 0x2c27 [0x2c57] .leaf) 0x2c28 [0x2c58] .leaf) 0x2c29 [0x2c59]
  (.node (.node .leaf 0x2c2a [0x2c5a] .leaf) 0x2c2b [0x2c5b] .leaf)))))

def cfTree_baa : Tree (List Nat) := .node cfTree_baaa 0x1ff8 [0x1f78] cfTree_baab

def cfTree_baba : Tree (List Nat) :=
  .node (.node (.node (.node (.node (.node (.node .leaf 0x2c2d [0x2c5d] .leaf) 0x2c2e [0x2c5e] .leaf) 0x2c2f [0x2c5f] (.node (.node .leaf 0x2c60
  [0x2c61] .leaf) 0x2c62 [0x26b] .leaf)) 0x2c63 [0x1d7d] (.node (.node (.node .leaf 0x2c64 [0x27d] .leaf) 0x2c67 [0x2c68] .leaf) 0x2c69 [0x2c6a]
  (.node (.node .leaf 0x2c6b [0x2c6c] .leaf) 0x2c6d [0x251] .leaf))) 0x2c6e [0x271] (.node (.node (.node (.node .leaf 0x2c6f [0x250] .leaf) 0x2c70
  [0x252] .leaf) 0x2c72 [0x2c73] (.node (.node .leaf 0x2c75 [0x2c76] .leaf) 0x2c7e [0x23f] .leaf)) 0x2c7f [0x240] (.node (.node (.node .leaf 0x2c80
  [0x2c81] .leaf) 0x2c82 [0x2c83] .leaf) 0x2c84 [0x2c85] (.node (.node .leaf 0x2c86 [0x2c87] .leaf) 0x2c88 [0x2c89] .leaf)))) 0x2c8a [0x2c8b] (.node
  (.node (.node (.node (.node .leaf 0x2c8c [0x2c8d] .leaf) 0x2c8e [0x2c8f] .leaf) 0x2c90 [0x2c91] (.node (.node .leaf 0x2c92 [0x2c93] .leaf) 0x2c94
  [0x2c95] .leaf)) 0x2c96 [0x2c97] (.node (.node (.node .leaf 0x2c98 [0x2c99] .leaf) 0x2c9a [0x2c9b] .leaf) 0x2c9c [0x2c9d] (.node (.node .leaf 0x2c9e
  [0x2c9f] .leaf) 0x2ca0 [0x2ca1] .leaf))) 0x2ca2 [0x2ca3] (.node (.node (.node (.node .leaf 0x2ca4 [0x2ca5] .leaf) 0x2ca6 [0x2ca7] .leaf) 0x2ca8
  [0x2ca9] (.node (.node .leaf 0x2caa [0x2cab] .leaf) 0x2cac [0x2cad] .leaf)) 0x2cae [0x2caf] (.node (.node (.node .leaf 0x2cb0 [0x2cb1] .leaf) 0x2cb2
  [0x2cb3] .leaf) 0x2cb4 [0x2cb5] (.node (.node .leaf 0x2cb6 [0x2cb7] .leaf) 0x2cb8 [0x2cb9] .leaf))))) 0x2cba [0x2cbb] (.node (.node (.node (.node
  (.node (.node .leaf 0x2cbc [0x2cbd] .leaf) 0x2cbe [0x2cbf] .leaf) 0x2cc0 [0x2cc1] (.node (.node .leaf 0x2cc2 [0x2cc3] .leaf) 0x2cc4 [0x2cc5] .leaf))
  0x2cc6 [0x2cc7] (.node (.node (.node .leaf 0x2cc8 [0x2cc9] .leaf) 0x2cca [0x2ccb] .leaf) 0x2ccc [0x2ccd] (.node (.node .leaf 0x2cce [0x2ccf] .leaf)
  0x2cd0 [0x2cd1] .leaf))) 0x2cd2 [0x2cd3] (.node (.node (.node (.node .leaf 0x2cd4 [0x2cd5] .leaf) 0x2cd6 [0x2cd7] .leaf) 0x2cd8 [0x2cd9] (.node
  (.node .leaf 0x2cda [0x2cdb] .leaf) 0x2cdc [0x2cdd] .leaf)) 0x2cde [0x2cdf] (.node (.node (.node .leaf 0x2ce0 [0x2ce1] .leaf) 0x2ce2 [0x2ce3] .leaf)
  0x2ceb [0x2cec] (.node (.node .leaf 0x2ced [0x2cee] .leaf) 0x2cf2 [0x2cf3] .leaf)))) 0xa640 [0xa641] (.node (.node (.node (.node (.node .leaf 0xa642
  [0xa643] .leaf) 0xa644 [0xa645] .leaf) 0xa646 [0xa647] (.node (.node .leaf 0xa648 [0xa649] .leaf) 0xa64a [0xa64b] .leaf)) 0xa64c [0xa64d] (.node
  (.node (.node .leaf 0xa64e [0xa64f] .leaf) 0xa650 [0xa651] .leaf) 0xa652 [0xa653] (.node (.node .leaf 0xa654 [0xa655] .leaf) 0xa656 [0xa657]
  .leaf))) 0xa658 [0xa659] (.node (.node (.node (.node .leaf 0xa65a [0xa65b] .leaf) 0xa65c [0xa65d] .leaf) 0xa65e [0xa65f] (.node (.node .leaf 0xa660
  [0xa661] .leaf) 0xa662 [0xa663] .leaf)) 0xa664 [0xa665] (.node (.node (.node .leaf 0xa666 [0xa667] .leaf) 0xa668 [0xa669] .leaf) 0xa66a [0xa66b]
  (.node (.node .leaf 0xa66c [0xa66d] .leaf) 0xa680 [0xa681] .leaf)))))

def cfTree_babb : Tree (List Nat) :=
  .node (.node (.node (.node (.node (.node (.node .leaf 0xa684 [0xa685] .leaf) 0xa686 [0xa687] .leaf) 0xa688 [0xa689] (.node (.node .leaf 0xa68a
  [0xa68b] .leaf) 0xa68c [0xa68d] .leaf)) 0xa68e [0xa68f] (.node (.node (.node .leaf 0xa690 [0xa691] .leaf) 0xa692 [0xa693] .leaf) 0xa694 [0xa695]
  (.node (.node .leaf 0xa696 [0xa697] .leaf) 0xa698 [0xa699] .leaf))) 0xa69a [0xa69b] (.node (.node (.node (.node .leaf 0xa722 [0xa723] .leaf) 0xa724
  [0xa725] .leaf) 0xa726 [0xa727] (.node (.node .leaf 0xa728 [0xa729] .leaf) 0xa72a [0xa72b] .leaf)) 0xa72c [0xa72d] (.node (.node (.node .leaf 0xa72e
  [0xa72f] .leaf) 0xa732 [0xa733] .leaf) 0xa734 [0xa735] (.node (.node .leaf 0xa736 [0xa737] .leaf) 0xa738 [0xa739] .leaf)))) 0xa73a [0xa73b] (.node
  (.node (.node (.node (.node .leaf 0xa73c [0xa73d] .leaf) 0xa73e [0xa73f] .leaf) 0xa740 [0xa741] (.node (.node .leaf 0xa742 [0xa743] .leaf) 0xa744
  [0xa745] .leaf)) 0xa746 [0xa747] (.node (.node (.node .leaf 0xa748 [0xa749] .leaf) 0xa74a [0xa74b] .leaf) 0xa74c [0xa74d] (.node (.node .leaf 0xa74e
  [0xa74f] .leaf) 0xa750 [0xa751] .leaf))) 0xa752 [0xa753] (.node (.node (.node (.node .leaf 0xa754 [0xa755] .leaf) 0xa756 [0xa757] .leaf) 0xa758
  [0xa759] (.node (.node .leaf 0xa75a [0xa75b] .leaf) 0xa75c [0xa75d] .leaf)) 0xa75e [0xa75f] (.node (.node (.node .leaf 0xa760 [0xa761] .leaf) 0xa762
  [0xa763] .leaf) 0xa764 [0xa765] (.node (.node .leaf 0xa766 [0xa767] .leaf) 0xa768 [0xa769] .leaf))))) 0xa76a [0xa76b] (.node (.node (.node (.node
  (.node (.node .leaf 0xa76c [0xa76d] .leaf) 0xa76e [0xa76f] .leaf) 0xa779 [0xa77a] (.node (.node .leaf 0xa77b [0xa77c] .leaf) 0xa77d [0x1d79] .leaf))
  0xa77e [0xa77f] (.node (.node (.node .leaf 0xa780 [0xa781] .leaf) 0xa782 [0xa783] .leaf) 0xa784 [0xa785] (.node (.node .leaf 0xa786 [0xa787] .leaf)
  0xa78b [0xa78c] .leaf))) 0xa78d [0x265] (.node (.node (.node (.node .leaf 0xa790 [0xa791] .leaf) 0xa792 [0xa793] .leaf) 0xa796 [0xa797] (.node
  (.node .leaf 0xa798 [0xa799] .leaf) 0xa79a [0xa79b] .leaf)) 0xa79c [0xa79d] (.node (.node (.node .leaf 0xa79e [0xa79f] .leaf) 0xa7a0 [0xa7a1] .leaf)
  0xa7a2 [0xa7a3] (.node (.node .leaf 0xa7a4 [0xa7a5] .leaf) 0xa7a6 [0xa7a7] .leaf)))) 0xa7a8 [0xa7a9] (.node (.node (.node (.node (.node .leaf 0xa7aa
  [0x266] .leaf) 0xa7ab [0x25c] .leaf) 0xa7ac [0x261] (.node (.node .leaf 0xa7ad [0x26c] .leaf) 0xa7ae [0x26a] .leaf)) 0xa7b0 [0x29e] (.node (.node
  (.node .leaf 0xa7b1 [0x287] .leaf) 0xa7b2 [0x29d] .leaf) 0xa7b3 [0xab53] (.node (.node .leaf 0xa7b4 [0xa7b5] .leaf) 0xa7b6 [0xa7b7] .leaf))) 0xa7b8
  [0xa7b9] (.node (.node (.node (.node .leaf 0xa7ba [0xa7bb] .leaf) 0xa7bc [0xa7bd] .leaf) 0xa7be [0xa7bf] (.node (.node .leaf 0xa7c0 [0xa7c1] .leaf)
  0xa7c2 [0xa7c3] .leaf)) 0xa7c4 [0xa794] (.node (.node (.node .leaf 0xa7c5 [0x282] .leaf) 0xa7c6 [0x1d8e] .leaf) 0xa7c7 [0xa7c8] (.node .leaf 0xa7c9
  [0xa7ca] .leaf)))))

def cfTree_bab : Tree (List Nat) := .node cfTree_baba 0xa682 [0xa683] cfTree_babb

def cfTree_ba : Tree (List Nat) := .node cfTree_baa 0x2c2c [0x2c5c] cfTree_bab

def cfTree_bbaa : Tree (List Nat) :=
  .node (.node (.node (.node (.node (.node (.node .leaf 0xa7d6 [0xa7d7] .leaf) 0xa7d8 [0xa7d9] .leaf) 0xa7f5 [0xa7f6] (.node (.node .leaf 0xab70
  [0x13a0] .leaf) 0xab71 [0x13a1] .leaf)) 0xab72 [0x13a2] (.node (.node (.node .leaf 0xab73 [0x13a3] .leaf) 0xab74 [0x13a4] .leaf) 0xab75 [0x13a5]
  (.node (.node .leaf 0xab76 [0x13a6] .leaf) 0xab77 [0x13a7] .leaf))) 0xab78 [0x13a8] (.node (.node (.node (.node .leaf 0xab79 [0x13a9] .leaf) 0xab7a
  [0x13aa] .leaf) 0xab7b [0x13ab] (.node (.node .leaf 0xab7c [0x13ac] .leaf) 0xab7d [0x13ad] .leaf)) 0xab7e [0x13ae] (.node (.node (.node .leaf 0xab7f
  [0x13af] .leaf) 0xab80 [0x13b0] .leaf) 0xab81 [0x13b1] (.node (.node .leaf 0xab82 [0x13b2] .leaf) 0xab83 [0x13b3] .leaf)))) 0xab84 [0x13b4] (.node
  (.node (.node (.node (.node .leaf 0xab85 [0x13b5] .leaf) 0xab86 [0x13b6] .leaf) 0xab87 [0x13b7] (.node (.node .leaf 0xab88 [0x13b8] .leaf) 0xab89
  [0x13b9] .leaf)) 0xab8a [0x13ba] (.node (.node (.node .leaf 0xab8b [0x13bb] .leaf) 0xab8c [0x13bc] .leaf) 0xab8d [0x13bd] (.node (.node .leaf 0xab8e
  [0x13be] .leaf) 0xab8f [0x13bf] .leaf))) 0xab90 [0x13c0] (.node (.node (.node (.node .leaf 0xab91 [0x13c1] .leaf) 0xab92 [0x13c2] .leaf) 0xab93
  [0x13c3] (.node (.node .leaf 0xab94 [0x13c4] .leaf) 0xab95 [0x13c5] .leaf)) 0xab96 [0x13c6] (.node (.node (.node .leaf 0xab97 [0x13c7] .leaf) 0xab98
  [0x13c8] .leaf) 0xab99 [0x13c9] (.node (.node .leaf 0xab9a [0x13ca] .leaf) 0xab9b [0x13cb] .leaf))))) 0xab9c [0x13cc] (.node (.node (.node (.node
  (.node (.node .leaf 0xab9d [0x13cd] .leaf) 0xab9e [0x13ce] .leaf) 0xab9f [0x13cf] (.node (.node .leaf 0xaba0 [0x13d0] .leaf) 0xaba1 [0x13d1] .leaf))
  0xaba2 [0x13d2] (.node (.node (.node .leaf 0xaba3 [0x13d3] .leaf) 0xaba4 [0x13d4] .leaf) 0xaba5 [0x13d5] (.node (.node .leaf 0xaba6 [0x13d6] .leaf)
  0xaba7 [0x13d7] .leaf))) 0xaba8 [0x13d8] (.node (.node (.node (.node .leaf 0xaba9 [0x13d9] .leaf) 0xabaa [0x13da] .leaf) 0xabab [0x13db] (.node
  (.node .leaf 0xabac [0x13dc] .leaf) 0xabad [0x13dd] .leaf)) 0xabae [0x13de] (.node (.node (.node .leaf 0xabaf [0x13df] .leaf) 0xabb0 [0x13e0] .leaf)
  0xabb1 [0x13e1] (.node (.node .leaf 0xabb2 [0x13e2] .leaf) 0xabb3 [0x13e3] .leaf)))) 0xabb4 [0x13e4] (.node (.node (.node (.node (.node .leaf 0xabb5
  [0x13e5] .leaf) 0xabb6 [0x13e6] .leaf) 0xabb7 [0x13e7] (.node (.node .leaf 0xabb8 [0x13e8] .leaf) 0xabb9 [0x13e9] .leaf)) 0xabba [0x13ea] (.node
  (.node (.node .leaf 0xabbb [0x13eb] .leaf) 0xabbc [0x13ec] .leaf) 0xabbd [0x13ed] (.node (.node .leaf 0xabbe [0x13ee] .leaf) 0xabbf [0x13ef]
  .leaf))) 0xfb00 [0x66, 0x66] (.node (.node (.node (.node .leaf 0xfb01 [0x66, 0x69] .leaf) 0xfb02 [0x66, 0x6c] .leaf) 0xfb03 [0x66, 0x66, 0x69]
  (.node (.node .leaf 0xfb04 [0x66, 0x66, 0x6c] .leaf) 0xfb05 [0x73, 0x74] .leaf)) 0xfb06 [0x73, 0x74] (.node (.node (.node .leaf 0xfb13 [0x574,
  0x576] .leaf) 0xfb14 [0x574, 0x565] .leaf) 0xfb15 [0x574, 0x56b] (.node (.node .leaf 0xfb16 [0x57e, 0x576] .leaf) 0xfb17 [0x574, 0x56d] .leaf)))))

def cfTree_bbab : Tree (List Nat) :=
  .node (.node (.node (.node (.node (.node (.node .leaf 0xff22 [0xff42] .leaf) 0xff23 [0xff43] .leaf) 0xff24 [0xff44] (.node (.node .leaf 0xff25
  [0xff45] .leaf) 0xff26 [0xff46] .leaf)) 0xff27 [0xff47] (.node (.node (.node .leaf 0xff28 [0xff48] .leaf) 0xff29 [0xff49] .leaf) 0xff2a [0xff4a]
  (.node (.node .leaf 0xff2b [0xff4b] .leaf) 0xff2c [0xff4c] .leaf))) 0xff2d [0xff4d] (.node (.node (.node (.node .leaf 0xff2e [0xff4e] .leaf) 0xff2f
  [0xff4f] .leaf) 0xff30 [0xff50] (.node (.node .leaf 0xff31 [0xff51] .leaf) 0xff32 [0xff52] .leaf)) 0xff33 [0xff53] (.node (.node (.node .leaf 0xff34
  [0xff54] .leaf) 0xff35 [0xff55] .leaf) 0xff36 [0xff56] (.node (.node .leaf 0xff37 [0xff57] .leaf) 0xff38 [0xff58] .leaf)))) 0xff39 [0xff59] (.node
  (.node (.node (.node (.node .leaf 0xff3a [0xff5a] .leaf) 0x10400 [0x10428] .leaf) 0x10401 [0x10429] (.node (.node .leaf 0x10402 [0x1042a] .leaf)
  0x10403 [0x1042b] .leaf)) 0x10404 [0x1042c] (.node (.node (.node .leaf 0x10405 [0x1042d] .leaf) 0x10406 [0x1042e] .leaf) 0x10407 [0x1042f] (.node
  (.node .leaf 0x10408 [0x10430] .leaf) 0x10409 [0x10431] .leaf))) 0x1040a [0x10432] (.node (.node (.node (.node .leaf 0x1040b [0x10433] .leaf)
  0x1040c [0x10434] .leaf) 0x1040d [0x10435] (.node (.node .leaf 0x1040e [0x10436] .leaf) 0x1040f [0x10437] .leaf)) 0x10410 [0x10438] (.node (.node
  (.node .leaf 0x10411 [0x10439] .leaf) 0x10412 [0x1043a] .leaf) 0x10413 [0x1043b] (.node (.node .leaf 0x10414 [0x1043c] .leaf) 0x10415 [0x1043d]
  .leaf))))) 0x10416 [0x1043e] (.node (.node (.node (.node (.node (.node .leaf 0x10417 [0x1043f] .leaf) 0x10418 [0x10440] .leaf) 0x10419 [0x10441]
  (.node (.node .leaf 0x1041a [0x10442] .leaf) 0x1041b [0x10443] .leaf)) 0x1041c [0x10444] (.node (.node (.node .leaf 0x1041d [0x10445] .leaf) 0x1041e
  [0x10446] .leaf) 0x1041f [0x10447] (.node (.node .leaf 0x10420 [0x10448] .leaf) 0x10421 [0x10449] .leaf))) 0x10422 [0x1044a] (.node (.node (.node
  (.node .leaf 0x10423 [0x1044b] .leaf) 0x10424 [0x1044c] .leaf) 0x10425 [0x1044d] (.node (.node .leaf 0x10426 [0x1044e] .leaf) 0x10427 [0x1044f]
  .leaf)) 0x104b0 [0x104d8] (.node (.node (.node .leaf 0x104b1 [0x104d9] .leaf) 0x104b2 [0x104da] .leaf) 0x104b3 [0x104db] (.node (.node .leaf 0x104b4
  [0x104dc] .leaf) 0x104b5 [0x104dd] .leaf)))) 0x104b6 [0x104de] (.node (.node (.node (.node (.node .leaf 0x104b7 [0x104df] .leaf) 0x104b8 [0x104e0]
  .leaf) 0x104b9 [0x104e1] (.node (.node .leaf 0x104ba [0x104e2] .leaf) 0x104bb [0x104e3] .leaf)) 0x104bc [0x104e4] (.node (.node (.node .leaf 0x104bd
  [0x104e5] .leaf) 0x104be [0x104e6] .leaf) 0x104bf [0x104e7] (.node (.node .leaf 0x104c0 [0x104e8] .leaf) 0x104c1 [0x104e9] .leaf))) 0x104c2
  [0x104ea] (.node (.node (.node (.node .leaf 0x104c3 [0x104eb] .leaf) 0x104c4 [0x104ec] .leaf) 0x104c5 [0x104ed] (.node (.node .leaf 0x104c6
  [0x104ee] .leaf) 0x104c7 [0x104ef] .leaf)) 0x104c8 [0x104f0] (.node (.node (.node .leaf 0x104c9 [0x104f1] .leaf) 0x104ca [0x104f2] .leaf) 0x104cb
  [0x104f3] (.node .leaf 0x104cc [0x104f4] .leaf)))))

def cfTree_bba : Tree (List Nat) := .node cfTree_bbaa 0xff21 [0xff41] cfTree_bbab

def cfTree_bbba : Tree (List Nat) :=
  .node (.node (.node (.node (.node (.node (.node .leaf 0x104ce [0x104f6] .leaf) 0x104cf [0x104f7] .leaf) 0x104d0 [0x104f8] (.node (.node .leaf
  0x104d1 [0x104f9] .leaf) 0x104d2 [0x104fa] .leaf)) 0x104d3 [0x104fb] (.node (.node (.node .leaf 0x10570 [0x10597] .leaf) 0x10571 [0x10598] .leaf)
  0x10572 [0x10599] (.node (.node .leaf 0x10573 [0x1059a] .leaf) 0x10574 [0x1059b] .leaf))) 0x10575 [0x1059c] (.node (.node (.node (.node .leaf
  0x10576 [0x1059d] .leaf) 0x10577 [0x1059e] .leaf) 0x10578 [0x1059f] (.node (.node .leaf 0x10579 [0x105a0] .leaf) 0x1057a [0x105a1] .leaf)) 0x1057c
  [0x105a3] (.node (.node (.node .leaf 0x1057d [0x105a4] .leaf) 0x1057e [0x105a5] .leaf) 0x1057f [0x105a6] (.node (.node .leaf 0x10580 [0x105a7]
  .leaf) 0x10581 [0x105a8] .leaf)))) 0x10582 [0x105a9] (.node (.node (.node (.node (.node .leaf 0x10583 [0x105aa] .leaf) 0x10584 [0x105ab] .leaf)
  0x10585 [0x105ac] (.node (.node .leaf 0x10586 [0x105ad] .leaf) 0x10587 [0x105ae] .leaf)) 0x10588 [0x105af] (.node (.node (.node .leaf 0x10589
  [0x105b0] .leaf) 0x1058a [0x105b1] .leaf) 0x1058c [0x105b3] (.node (.node .leaf 0x1058d [0x105b4] .leaf) 0x1058e [0x105b5] .leaf))) 0x1058f
  [0x105b6] (.node (.node (.node (.node .leaf 0x10590 [0x105b7] .leaf) 0x10591 [0x105b8] .leaf) 0x10592 [0x105b9] (.node (.node .leaf 0x10594
  [0x105bb] .leaf) 0x10595 [0x105bc] .leaf)) 0x10c80 [0x10cc0] (.node (.node (.node .leaf 0x10c81 [0x10cc1] .leaf) 0x10c82 [0x10cc2] .leaf) 0x10c83
  [0x10cc3] (.node (.node .leaf 0x10c84 [0x10cc4] .leaf) 0x10c85 [0x10cc5] .leaf))))) 0x10c86 [0x10cc6] (.node (.node (.node (.node (.node (.node
  .leaf 0x10c87 [0x10cc7] .leaf) 0x10c88 [0x10cc8] .leaf) 0x10c89 [0x10cc9] (.node (.node .leaf 0x10c8a [0x10cca] .leaf) 0x10c8b [0x10ccb] .leaf))
  0x10c8c [0x10ccc] (.node (.node (.node .leaf 0x10c8d [0x10ccd] .leaf) 0x10c8e [0x10cce] .leaf) 0x10c8f [0x10ccf] (.node (.node .leaf 0x10c90
  [0x10cd0] .leaf) 0x10c91 [0x10cd1] .leaf))) 0x10c92 [0x10cd2] (.node (.node (.node (.node .leaf 0x10c93 [0x10cd3] .leaf) 0x10c94 [0x10cd4] .leaf)
  0x10c95 [0x10cd5] (.node (.node .leaf 0x10c96 [0x10cd6] .leaf) 0x10c97 [0x10cd7] .leaf)) 0x10c98 [0x10cd8] (.node (.node (.node .leaf 0x10c99
  [0x10cd9] .leaf) 0x10c9a [0x10cda] .leaf) 0x10c9b [0x10cdb] (.node (.node .leaf 0x10c9c [0x10cdc] .leaf) 0x10c9d [0x10cdd] .leaf)))) 0x10c9e
  [0x10cde] (.node (.node (.node (.node (.node .leaf 0x10c9f [0x10cdf] .leaf) 0x10ca0 [0x10ce0] .leaf) 0x10ca1 [0x10ce1] (.node (.node .leaf 0x10ca2
  [0x10ce2] .leaf) 0x10ca3 [0x10ce3] .leaf)) 0x10ca4 [0x10ce4] (.node (.node (.node .leaf 0x10ca5 [0x10ce5] .leaf) 0x10ca6 [0x10ce6] .leaf) 0x10ca7
  [0x10ce7] (.node (.node .leaf 0x10ca8 [0x10ce8] .leaf) 0x10ca9 [0x10ce9] .leaf))) 0x10caa [0x10cea] (.node (.node (.node (.node .leaf 0x10cab
  [0x10ceb] .leaf) 0x10cac [0x10cec] .leaf) 0x10cad [0x10ced] (.node (.node .leaf 0x10cae [0x10cee] .leaf) 0x10caf [0x10cef] .leaf)) 0x10cb0 [0x10cf0]
  (.node (.node (.node .leaf 0x10cb1 [0x10cf1] .leaf) 0x10cb2 [0x10cf2] .leaf) 0x118a0 [0x118c0] (.node (.node .leaf 0x118a1 [0x118c1] .leaf) 0x118a2
  [0x118c2] .leaf)))))

def cfTree_bbbb : Tree (List Nat) :=
  .node (.node (.node (.node (.node (.node (.node .leaf 0x118a4 [0x118c4] .leaf) 0x118a5 [0x118c5] .leaf) 0x118a6 [0x118c6] (.node (.node .leaf
  0x118a7 [0x118c7] .leaf) 0x118a8 [0x118c8] .leaf)) 0x118a9 [0x118c9] (.node (.node (.node .leaf 0x118aa [0x118ca] .leaf) 0x118ab [0x118cb] .leaf)
  0x118ac [0x118cc] (.node (.node .leaf 0x118ad [0x118cd] .leaf) 0x118ae [0x118ce] .leaf))) 0x118af [0x118cf] (.node (.node (.node (.node .leaf
  0x118b0 [0x118d0] .leaf) 0x118b1 [0x118d1] .leaf) 0x118b2 [0x118d2] (.node (.node .leaf 0x118b3 [0x118d3] .leaf) 0x118b4 [0x118d4] .leaf)) 0x118b5
  [0x118d5] (.node (.node (.node .leaf 0x118b6 [0x118d6] .leaf) 0x118b7 [0x118d7] .leaf) 0x118b8 [0x118d8] (.node (.node .leaf 0x118b9 [0x118d9]
  .leaf) 0x118ba [0x118da] .leaf)))) 0x118bb [0x118db] (.node (.node (.node (.node (.node .leaf 0x118bc [0x118dc] .leaf) 0x118bd [0x118dd] .leaf)
  0x118be [0x118de] (.node (.node .leaf 0x118bf [0x118df] .leaf) 0x16e40 [0x16e60] .leaf)) 0x16e41 [0x16e61] (.node (.node (.node .leaf 0x16e42
  [0x16e62] .leaf) 0x16e43 [0x16e63] .leaf) 0x16e44 [0x16e64] (.node (.node .leaf 0x16e45 [0x16e65] .leaf) 0x16e46 [0x16e66] .leaf))) 0x16e47
  [0x16e67] (.node (.node (.node (.node .leaf 0x16e48 [0x16e68] .leaf) 0x16e49 [0x16e69] .leaf) 0x16e4a [0x16e6a] (.node (.node .leaf 0x16e4b
  [0x16e6b] .leaf) 0x16e4c [0x16e6c] .leaf)) 0x16e4d [0x16e6d] (.node (.node (.node .leaf 0x16e4e [0x16e6e] .leaf) 0x16e4f [0x16e6f] .leaf) 0x16e50
  [0x16e70] (.node (.node .leaf 0x16e51 [0x16e71] .leaf) 0x16e52 [0x16e72] .leaf))))) 0x16e53 [0x16e73] (.node (.node (.node (.node (.node (.node
  .leaf 0x16e54 [0x16e74] .leaf) 0x16e55 [0x16e75] .leaf) 0x16e56 [0x16e76] (.node (.node .leaf 0x16e57 [0x16e77] .leaf) 0x16e58 [0x16e78] .leaf))
  0x16e59 [0x16e79] (.node (.node (.node .leaf 0x16e5a [0x16e7a] .leaf) 0x16e5b [0x16e7b] .leaf) 0x16e5c [0x16e7c] (.node (.node .leaf 0x16e5d
  [0x16e7d] .leaf) 0x16e5e [0x16e7e] .leaf))) 0x16e5f [0x16e7f] (.node (.node (.node (.node .leaf 0x1e900 [0x1e922] .leaf) 0x1e901 [0x1e923] .leaf)
  0x1e902 [0x1e924] (.node (.node .leaf 0x1e903 [0x1e925] .leaf) 0x1e904 [0x1e926] .leaf)) 0x1e905 [0x1e927] (.node (.node (.node .leaf 0x1e906
  [0x1e928] .leaf) 0x1e907 [0x1e929] .leaf) 0x1e908 [0x1e92a] (.node (.node .leaf 0x1e909 [0x1e92b] .leaf) 0x1e90a [0x1e92c] .leaf)))) 0x1e90b
  [0x1e92d] (.node (.node (.node (.node (.node .leaf 0x1e90c [0x1e92e] .leaf) 0x1e90d [0x1e92f] .leaf) 0x1e90e [0x1e930] (.node (.node .leaf 0x1e90f
  [0x1e931] .leaf) 0x1e910 [0x1e932] .leaf)) 0x1e911 [0x1e933] (.node (.node (.node .leaf 0x1e912 [0x1e934] .leaf) 0x1e913 [0x1e935] .leaf) 0x1e914
  [0x1e936] (.node (.node .leaf 0x1e915 [0x1e937] .leaf) 0x1e916 [0x1e938] .leaf))) 0x1e917 [0x1e939] (.node (.node (.node (.node .leaf 0x1e918
  [0x1e93a] .leaf) 0x1e919 [0x1e93b] .leaf) 0x1e91a [0x1e93c] (.node (.node .leaf 0x1e91b [0x1e93d] .leaf) 0x1e91c [0x1e93e] .leaf)) 0x1e91d [0x1e93f]
  (.node (.node (.node .leaf 0x1e91e [0x1e940] .leaf) 0x1e91f [0x1e941] .leaf) 0x1e920 [0x1e942] (.node .leaf 0x1e921 [0x1e943] .leaf)))))

def cfTree_bbb : Tree (List Nat) := .node cfTree_bbba 0x118a3 [0x118c3] cfTree_bbbb

def cfTree_bb : Tree (List Nat) := .node cfTree_bba 0x104cd [0x104f5] cfTree_bbb

def cfTree_b : Tree (List Nat) := .node cfTree_ba 0xa7d0 [0xa7d1] cfTree_bb

/-- case foldings of Unicode -/
def cfTree : Tree (List Nat) := .node cfTree_a 0x1f6c [0x1f64] cfTree_b

end Name
end Verif
