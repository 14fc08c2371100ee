/-!
# Unicode: canonical decomposition, case folding and combining classes

The tables are those of the Unicode Character Database, version 14.0.0, as found in the Python standard library (`unicodedata.normalize`,
`str.casefold` and `unicodedata.combining`). They were not made from the tables in the repository. They are grouped in pages of 256 code points.
-/
namespace Verif.Spec.Unicode

/-- full canonical decompositions, without Hangul syllables, U+0 to U+FF -/
def decomposition0 : List (Nat × List Nat) := [
  (0xc0, [0x41, 0x300]), (0xc1, [0x41, 0x301]), (0xc2, [0x41, 0x302]), (0xc3, [0x41, 0x303]), (0xc4, [0x41, 0x308]), (0xc5, [0x41, 0x30a]),
  (0xc7, [0x43, 0x327]), (0xc8, [0x45, 0x300]), (0xc9, [0x45, 0x301]), (0xca, [0x45, 0x302]), (0xcb, [0x45, 0x308]), (0xcc, [0x49, 0x300]),
  (0xcd, [0x49, 0x301]), (0xce, [0x49, 0x302]), (0xcf, [0x49, 0x308]), (0xd1, [0x4e, 0x303]), (0xd2, [0x4f, 0x300]), (0xd3, [0x4f, 0x301]),
  (0xd4, [0x4f, 0x302]), (0xd5, [0x4f, 0x303]), (0xd6, [0x4f, 0x308]), (0xd9, [0x55, 0x300]), (0xda, [0x55, 0x301]), (0xdb, [0x55, 0x302]),
  (0xdc, [0x55, 0x308]), (0xdd, [0x59, 0x301]), (0xe0, [0x61, 0x300]), (0xe1, [0x61, 0x301]), (0xe2, [0x61, 0x302]), (0xe3, [0x61, 0x303]),
  (0xe4, [0x61, 0x308]), (0xe5, [0x61, 0x30a]), (0xe7, [0x63, 0x327]), (0xe8, [0x65, 0x300]), (0xe9, [0x65, 0x301]), (0xea, [0x65, 0x302]),
  (0xeb, [0x65, 0x308]), (0xec, [0x69, 0x300]), (0xed, [0x69, 0x301]), (0xee, [0x69, 0x302]), (0xef, [0x69, 0x308]), (0xf1, [0x6e, 0x303]),
  (0xf2, [0x6f, 0x300]), (0xf3, [0x6f, 0x301]), (0xf4, [0x6f, 0x302]), (0xf5, [0x6f, 0x303]), (0xf6, [0x6f, 0x308]), (0xf9, [0x75, 0x300]),
  (0xfa, [0x75, 0x301]), (0xfb, [0x75, 0x302]), (0xfc, [0x75, 0x308]), (0xfd, [0x79, 0x301]), (0xff, [0x79, 0x308])]

/-- full canonical decompositions, without Hangul syllables, U+100 to U+1FF -/
def decomposition1 : List (Nat × List Nat) := [
  (0x100, [0x41, 0x304]), (0x101, [0x61, 0x304]), (0x102, [0x41, 0x306]), (0x103, [0x61, 0x306]), (0x104, [0x41, 0x328]), (0x105, [0x61, 0x328]),
  (0x106, [0x43, 0x301]), (0x107, [0x63, 0x301]), (0x108, [0x43, 0x302]), (0x109, [0x63, 0x302]), (0x10a, [0x43, 0x307]), (0x10b, [0x63, 0x307]),
  (0x10c, [0x43, 0x30c]), (0x10d, [0x63, 0x30c]), (0x10e, [0x44, 0x30c]), (0x10f, [0x64, 0x30c]), (0x112, [0x45, 0x304]), (0x113, [0x65, 0x304]),
  (0x114, [0x45, 0x306]), (0x115, [0x65, 0x306]), (0x116, [0x45, 0x307]), (0x117, [0x65, 0x307]), (0x118, [0x45, 0x328]), (0x119, [0x65, 0x328]),
  (0x11a, [0x45, 0x30c]), (0x11b, [0x65, 0x30c]), (0x11c, [0x47, 0x302]), (0x11d, [0x67, 0x302]), (0x11e, [0x47, 0x306]), (0x11f, [0x67, 0x306]),
  (0x120, [0x47, 0x307]), (0x121, [0x67, 0x307]), (0x122, [0x47, 0x327]), (0x123, [0x67, 0x327]), (0x124, [0x48, 0x302]), (0x125, [0x68, 0x302]),
  (0x128, [0x49, 0x303]), (0x129, [0x69, 0x303]), (0x12a, [0x49, 0x304]), (0x12b, [0x69, 0x304]), (0x12c, [0x49, 0x306]), (0x12d, [0x69, 0x306]),
  (0x12e, [0x49, 0x328]), (0x12f, [0x69, 0x328]), (0x130, [0x49, 0x307]), (0x134, [0x4a, 0x302]), (0x135, [0x6a, 0x302]), (0x136, [0x4b, 0x327]),
  (0x137, [0x6b, 0x327]), (0x139, [0x4c, 0x301]), (0x13a, [0x6c, 0x301]), (0x13b, [0x4c, 0x327]), (0x13c, [0x6c, 0x327]), (0x13d, [0x4c, 0x30c]),
  (0x13e, [0x6c, 0x30c]), (0x143, [0x4e, 0x301]), (0x144, [0x6e, 0x301]), (0x145, [0x4e, 0x327]), (0x146, [0x6e, 0x327]), (0x147, [0x4e, 0x30c]),
  (0x148, [0x6e, 0x30c]), (0x14c, [0x4f, 0x304]), (0x14d, [0x6f, 0x304]), (0x14e, [0x4f, 0x306]), (0x14f, [0x6f, 0x306]), (0x150, [0x4f, 0x30b]),
  (0x151, [0x6f, 0x30b]), (0x154, [0x52, 0x301]), (0x155, [0x72, 0x301]), (0x156, [0x52, 0x327]), (0x157, [0x72, 0x327]), (0x158, [0x52, 0x30c]),
  (0x159, [0x72, 0x30c]), (0x15a, [0x53, 0x301]), (0x15b, [0x73, 0x301]), (0x15c, [0x53, 0x302]), (0x15d, [0x73, 0x302]), (0x15e, [0x53, 0x327]),
  (0x15f, [0x73, 0x327]), (0x160, [0x53, 0x30c]), (0x161, [0x73, 0x30c]), (0x162, [0x54, 0x327]), (0x163, [0x74, 0x327]), (0x164, [0x54, 0x30c]),
  (0x165, [0x74, 0x30c]), (0x168, [0x55, 0x303]), (0x169, [0x75, 0x303]), (0x16a, [0x55, 0x304]), (0x16b, [0x75, 0x304]), (0x16c, [0x55, 0x306]),
  (0x16d, [0x75, 0x306]), (0x16e, [0x55, 0x30a]), (0x16f, [0x75, 0x30a]), (0x170, [0x55, 0x30b]), (0x171, [0x75, 0x30b]), (0x172, [0x55, 0x328]),
  (0x173, [0x75, 0x328]), (0x174, [0x57, 0x302]), (0x175, [0x77, 0x302]), (0x176, [0x59, 0x302]), (0x177, [0x79, 0x302]), (0x178, [0x59, 0x308]),
  (0x179, [0x5a, 0x301]), (0x17a, [0x7a, 0x301]), (0x17b, [0x5a, 0x307]), (0x17c, [0x7a, 0x307]), (0x17d, [0x5a, 0x30c]), (0x17e, [0x7a, 0x30c]),
  (0x1a0, [0x4f, 0x31b]), (0x1a1, [0x6f, 0x31b]), (0x1af, [0x55, 0x31b]), (0x1b0, [0x75, 0x31b]), (0x1cd, [0x41, 0x30c]), (0x1ce, [0x61, 0x30c]),
  (0x1cf, [0x49, 0x30c]), (0x1d0, [0x69, 0x30c]), (0x1d1, [0x4f, 0x30c]), (0x1d2, [0x6f, 0x30c]), (0x1d3, [0x55, 0x30c]), (0x1d4, [0x75, 0x30c]),
  (0x1d5, [0x55, 0x308, 0x304]), (0x1d6, [0x75, 0x308, 0x304]), (0x1d7, [0x55, 0x308, 0x301]), (0x1d8, [0x75, 0x308, 0x301]),
  (0x1d9, [0x55, 0x308, 0x30c]), (0x1da, [0x75, 0x308, 0x30c]), (0x1db, [0x55, 0x308, 0x300]), (0x1dc, [0x75, 0x308, 0x300]),
  (0x1de, [0x41, 0x308, 0x304]), (0x1df, [0x61, 0x308, 0x304]), (0x1e0, [0x41, 0x307, 0x304]), (0x1e1, [0x61, 0x307, 0x304]), (0x1e2, [0xc6, 0x304]),
  (0x1e3, [0xe6, 0x304]), (0x1e6, [0x47, 0x30c]), (0x1e7, [0x67, 0x30c]), (0x1e8, [0x4b, 0x30c]), (0x1e9, [0x6b, 0x30c]), (0x1ea, [0x4f, 0x328]),
  (0x1eb, [0x6f, 0x328]), (0x1ec, [0x4f, 0x328, 0x304]), (0x1ed, [0x6f, 0x328, 0x304]), (0x1ee, [0x1b7, 0x30c]), (0x1ef, [0x292, 0x30c]),
  (0x1f0, [0x6a, 0x30c]), (0x1f4, [0x47, 0x301]), (0x1f5, [0x67, 0x301]), (0x1f8, [0x4e, 0x300]), (0x1f9, [0x6e, 0x300]),
  (0x1fa, [0x41, 0x30a, 0x301]), (0x1fb, [0x61, 0x30a, 0x301]), (0x1fc, [0xc6, 0x301]), (0x1fd, [0xe6, 0x301]), (0x1fe, [0xd8, 0x301]),
  (0x1ff, [0xf8, 0x301])]

/-- full canonical decompositions, without Hangul syllables, U+200 to U+2FF -/
def decomposition2 : List (Nat × List Nat) := [
  (0x200, [0x41, 0x30f]), (0x201, [0x61, 0x30f]), (0x202, [0x41, 0x311]), (0x203, [0x61, 0x311]), (0x204, [0x45, 0x30f]), (0x205, [0x65, 0x30f]),
  (0x206, [0x45, 0x311]), (0x207, [0x65, 0x311]), (0x208, [0x49, 0x30f]), (0x209, [0x69, 0x30f]), (0x20a, [0x49, 0x311]), (0x20b, [0x69, 0x311]),
  (0x20c, [0x4f, 0x30f]), (0x20d, [0x6f, 0x30f]), (0x20e, [0x4f, 0x311]), (0x20f, [0x6f, 0x311]), (0x210, [0x52, 0x30f]), (0x211, [0x72, 0x30f]),
  (0x212, [0x52, 0x311]), (0x213, [0x72, 0x311]), (0x214, [0x55, 0x30f]), (0x215, [0x75, 0x30f]), (0x216, [0x55, 0x311]), (0x217, [0x75, 0x311]),
  (0x218, [0x53, 0x326]), (0x219, [0x73, 0x326]), (0x21a, [0x54, 0x326]), (0x21b, [0x74, 0x326]), (0x21e, [0x48, 0x30c]), (0x21f, [0x68, 0x30c]),
  (0x226, [0x41, 0x307]), (0x227, [0x61, 0x307]), (0x228, [0x45, 0x327]), (0x229, [0x65, 0x327]), (0x22a, [0x4f, 0x308, 0x304]),
  (0x22b, [0x6f, 0x308, 0x304]), (0x22c, [0x4f, 0x303, 0x304]), (0x22d, [0x6f, 0x303, 0x304]), (0x22e, [0x4f, 0x307]), (0x22f, [0x6f, 0x307]),
  (0x230, [0x4f, 0x307, 0x304]), (0x231, [0x6f, 0x307, 0x304]), (0x232, [0x59, 0x304]), (0x233, [0x79, 0x304])]

/-- full canonical decompositions, without Hangul syllables, U+300 to U+3FF -/
def decomposition3 : List (Nat × List Nat) := [
  (0x340, [0x300]), (0x341, [0x301]), (0x343, [0x313]), (0x344, [0x308, 0x301]), (0x374, [0x2b9]), (0x37e, [0x3b]), (0x385, [0xa8, 0x301]),
  (0x386, [0x391, 0x301]), (0x387, [0xb7]), (0x388, [0x395, 0x301]), (0x389, [0x397, 0x301]), (0x38a, [0x399, 0x301]), (0x38c, [0x39f, 0x301]),
  (0x38e, [0x3a5, 0x301]), (0x38f, [0x3a9, 0x301]), (0x390, [0x3b9, 0x308, 0x301]), (0x3aa, [0x399, 0x308]), (0x3ab, [0x3a5, 0x308]),
  (0x3ac, [0x3b1, 0x301]), (0x3ad, [0x3b5, 0x301]), (0x3ae, [0x3b7, 0x301]), (0x3af, [0x3b9, 0x301]), (0x3b0, [0x3c5, 0x308, 0x301]),
  (0x3ca, [0x3b9, 0x308]), (0x3cb, [0x3c5, 0x308]), (0x3cc, [0x3bf, 0x301]), (0x3cd, [0x3c5, 0x301]), (0x3ce, [0x3c9, 0x301]),
  (0x3d3, [0x3d2, 0x301]), (0x3d4, [0x3d2, 0x308])]

/-- full canonical decompositions, without Hangul syllables, U+400 to U+4FF -/
def decomposition4 : List (Nat × List Nat) := [
  (0x400, [0x415, 0x300]), (0x401, [0x415, 0x308]), (0x403, [0x413, 0x301]), (0x407, [0x406, 0x308]), (0x40c, [0x41a, 0x301]),
  (0x40d, [0x418, 0x300]), (0x40e, [0x423, 0x306]), (0x419, [0x418, 0x306]), (0x439, [0x438, 0x306]), (0x450, [0x435, 0x300]),
  (0x451, [0x435, 0x308]), (0x453, [0x433, 0x301]), (0x457, [0x456, 0x308]), (0x45c, [0x43a, 0x301]), (0x45d, [0x438, 0x300]),
  (0x45e, [0x443, 0x306]), (0x476, [0x474, 0x30f]), (0x477, [0x475, 0x30f]), (0x4c1, [0x416, 0x306]), (0x4c2, [0x436, 0x306]),
  (0x4d0, [0x410, 0x306]), (0x4d1, [0x430, 0x306]), (0x4d2, [0x410, 0x308]), (0x4d3, [0x430, 0x308]), (0x4d6, [0x415, 0x306]),
  (0x4d7, [0x435, 0x306]), (0x4da, [0x4d8, 0x308]), (0x4db, [0x4d9, 0x308]), (0x4dc, [0x416, 0x308]), (0x4dd, [0x436, 0x308]),
  (0x4de, [0x417, 0x308]), (0x4df, [0x437, 0x308]), (0x4e2, [0x418, 0x304]), (0x4e3, [0x438, 0x304]), (0x4e4, [0x418, 0x308]),
  (0x4e5, [0x438, 0x308]), (0x4e6, [0x41e, 0x308]), (0x4e7, [0x43e, 0x308]), (0x4ea, [0x4e8, 0x308]), (0x4eb, [0x4e9, 0x308]),
  (0x4ec, [0x42d, 0x308]), (0x4ed, [0x44d, 0x308]), (0x4ee, [0x423, 0x304]), (0x4ef, [0x443, 0x304]), (0x4f0, [0x423, 0x308]),
  (0x4f1, [0x443, 0x308]), (0x4f2, [0x423, 0x30b]), (0x4f3, [0x443, 0x30b]), (0x4f4, [0x427, 0x308]), (0x4f5, [0x447, 0x308]),
  (0x4f8, [0x42b, 0x308]), (0x4f9, [0x44b, 0x308])]

/-- full canonical decompositions, without Hangul syllables, U+600 to U+6FF -/
def decomposition6 : List (Nat × List Nat) := [
  (0x622, [0x627, 0x653]), (0x623, [0x627, 0x654]), (0x624, [0x648, 0x654]), (0x625, [0x627, 0x655]), (0x626, [0x64a, 0x654]),
  (0x6c0, [0x6d5, 0x654]), (0x6c2, [0x6c1, 0x654]), (0x6d3, [0x6d2, 0x654])]

/-- full canonical decompositions, without Hangul syllables, U+900 to U+9FF -/
def decomposition9 : List (Nat × List Nat) := [
  (0x929, [0x928, 0x93c]), (0x931, [0x930, 0x93c]), (0x934, [0x933, 0x93c]), (0x958, [0x915, 0x93c]), (0x959, [0x916, 0x93c]),
  (0x95a, [0x917, 0x93c]), (0x95b, [0x91c, 0x93c]), (0x95c, [0x921, 0x93c]), (0x95d, [0x922, 0x93c]), (0x95e, [0x92b, 0x93c]),
  (0x95f, [0x92f, 0x93c]), (0x9cb, [0x9c7, 0x9be]), (0x9cc, [0x9c7, 0x9d7]), (0x9dc, [0x9a1, 0x9bc]), (0x9dd, [0x9a2, 0x9bc]), (0x9df, [0x9af, 0x9bc])]

/-- full canonical decompositions, without Hangul syllables, U+A00 to U+AFF -/
def decompositiona : List (Nat × List Nat) := [
  (0xa33, [0xa32, 0xa3c]), (0xa36, [0xa38, 0xa3c]), (0xa59, [0xa16, 0xa3c]), (0xa5a, [0xa17, 0xa3c]), (0xa5b, [0xa1c, 0xa3c]), (0xa5e, [0xa2b, 0xa3c])]

/-- full canonical decompositions, without Hangul syllables, U+B00 to U+BFF -/
def decompositionb : List (Nat × List Nat) := [
  (0xb48, [0xb47, 0xb56]), (0xb4b, [0xb47, 0xb3e]), (0xb4c, [0xb47, 0xb57]), (0xb5c, [0xb21, 0xb3c]), (0xb5d, [0xb22, 0xb3c]),
  (0xb94, [0xb92, 0xbd7]), (0xbca, [0xbc6, 0xbbe]), (0xbcb, [0xbc7, 0xbbe]), (0xbcc, [0xbc6, 0xbd7])]

/-- full canonical decompositions, without Hangul syllables, U+C00 to U+CFF -/
def decompositionc : List (Nat × List Nat) := [
  (0xc48, [0xc46, 0xc56]), (0xcc0, [0xcbf, 0xcd5]), (0xcc7, [0xcc6, 0xcd5]), (0xcc8, [0xcc6, 0xcd6]), (0xcca, [0xcc6, 0xcc2]),
  (0xccb, [0xcc6, 0xcc2, 0xcd5])]

/-- full canonical decompositions, without Hangul syllables, U+D00 to U+DFF -/
def decompositiond : List (Nat × List Nat) := [
  (0xd4a, [0xd46, 0xd3e]), (0xd4b, [0xd47, 0xd3e]), (0xd4c, [0xd46, 0xd57]), (0xdda, [0xdd9, 0xdca]), (0xddc, [0xdd9, 0xdcf]),
  (0xddd, [0xdd9, 0xdcf, 0xdca]), (0xdde, [0xdd9, 0xddf])]

/-- full canonical decompositions, without Hangul syllables, U+F00 to U+FFF -/
def decompositionf : List (Nat × List Nat) := [
  (0xf43, [0xf42, 0xfb7]), (0xf4d, [0xf4c, 0xfb7]), (0xf52, [0xf51, 0xfb7]), (0xf57, [0xf56, 0xfb7]), (0xf5c, [0xf5b, 0xfb7]),
  (0xf69, [0xf40, 0xfb5]), (0xf73, [0xf71, 0xf72]), (0xf75, [0xf71, 0xf74]), (0xf76, [0xfb2, 0xf80]), (0xf78, [0xfb3, 0xf80]),
  (0xf81, [0xf71, 0xf80]), (0xf93, [0xf92, 0xfb7]), (0xf9d, [0xf9c, 0xfb7]), (0xfa2, [0xfa1, 0xfb7]), (0xfa7, [0xfa6, 0xfb7]),
  (0xfac, [0xfab, 0xfb7]), (0xfb9, [0xf90, 0xfb5])]

/-- full canonical decompositions, without Hangul syllables, U+1000 to U+10FF -/
def decomposition10 : List (Nat × List Nat) := [
  (0x1026, [0x1025, 0x102e])]

/-- full canonical decompositions, without Hangul syllables, U+1B00 to U+1BFF -/
def decomposition1b : List (Nat × List Nat) := [
  (0x1b06, [0x1b05, 0x1b35]), (0x1b08, [0x1b07, 0x1b35]), (0x1b0a, [0x1b09, 0x1b35]), (0x1b0c, [0x1b0b, 0x1b35]), (0x1b0e, [0x1b0d, 0x1b35]),
  (0x1b12, [0x1b11, 0x1b35]), (0x1b3b, [0x1b3a, 0x1b35]), (0x1b3d, [0x1b3c, 0x1b35]), (0x1b40, [0x1b3e, 0x1b35]), (0x1b41, [0x1b3f, 0x1b35]),
  (0x1b43, [0x1b42, 0x1b35])]

/-- full canonical decompositions, without Hangul syllables, U+1E00 to U+1EFF -/
def decomposition1e : List (Nat × List Nat) := [
  (0x1e00, [0x41, 0x325]), (0x1e01, [0x61, 0x325]), (0x1e02, [0x42, 0x307]), (0x1e03, [0x62, 0x307]), (0x1e04, [0x42, 0x323]),
  (0x1e05, [0x62, 0x323]), (0x1e06, [0x42, 0x331]), (0x1e07, [0x62, 0x331]), (0x1e08, [0x43, 0x327, 0x301]), (0x1e09, [0x63, 0x327, 0x301]),
  (0x1e0a, [0x44, 0x307]), (0x1e0b, [0x64, 0x307]), (0x1e0c, [0x44, 0x323]), (0x1e0d, [0x64, 0x323]), (0x1e0e, [0x44, 0x331]),
  (0x1e0f, [0x64, 0x331]), (0x1e10, [0x44, 0x327]), (0x1e11, [0x64, 0x327]), (0x1e12, [0x44, 0x32d]), (0x1e13, [0x64, 0x32d]),
  (0x1e14, [0x45, 0x304, 0x300]), (0x1e15, [0x65, 0x304, 0x300]), (0x1e16, [0x45, 0x304, 0x301]), (0x1e17, [0x65, 0x304, 0x301]),
  (0x1e18, [0x45, 0x32d]), (0x1e19, [0x65, 0x32d]), (0x1e1a, [0x45, 0x330]), (0x1e1b, [0x65, 0x330]), (0x1e1c, [0x45, 0x327, 0x306]),
  (0x1e1d, [0x65, 0x327, 0x306]), (0x1e1e, [0x46, 0x307]), (0x1e1f, [0x66, 0x307]), (0x1e20, [0x47, 0x304]), (0x1e21, [0x67, 0x304]),
  (0x1e22, [0x48, 0x307]), (0x1e23, [0x68, 0x307]), (0x1e24, [0x48, 0x323]), (0x1e25, [0x68, 0x323]), (0x1e26, [0x48, 0x308]),
  (0x1e27, [0x68, 0x308]), (0x1e28, [0x48, 0x327]), (0x1e29, [0x68, 0x327]), (0x1e2a, [0x48, 0x32e]), (0x1e2b, [0x68, 0x32e]),
  (0x1e2c, [0x49, 0x330]), (0x1e2d, [0x69, 0x330]), (0x1e2e, [0x49, 0x308, 0x301]), (0x1e2f, [0x69, 0x308, 0x301]), (0x1e30, [0x4b, 0x301]),
  (0x1e31, [0x6b, 0x301]), (0x1e32, [0x4b, 0x323]), (0x1e33, [0x6b, 0x323]), (0x1e34, [0x4b, 0x331]), (0x1e35, [0x6b, 0x331]),
  (0x1e36, [0x4c, 0x323]), (0x1e37, [0x6c, 0x323]), (0x1e38, [0x4c, 0x323, 0x304]), (0x1e39, [0x6c, 0x323, 0x304]), (0x1e3a, [0x4c, 0x331]),
  (0x1e3b, [0x6c, 0x331]), (0x1e3c, [0x4c, 0x32d]), (0x1e3d, [0x6c, 0x32d]), (0x1e3e, [0x4d, 0x301]), (0x1e3f, [0x6d, 0x301]),
  (0x1e40, [0x4d, 0x307]), (0x1e41, [0x6d, 0x307]), (0x1e42, [0x4d, 0x323]), (0x1e43, [0x6d, 0x323]), (0x1e44, [0x4e, 0x307]),
  (0x1e45, [0x6e, 0x307]), (0x1e46, [0x4e, 0x323]), (0x1e47, [0x6e, 0x323]), (0x1e48, [0x4e, 0x331]), (0x1e49, [0x6e, 0x331]),
  (0x1e4a, [0x4e, 0x32d]), (0x1e4b, [0x6e, 0x32d]), (0x1e4c, [0x4f, 0x303, 0x301]), (0x1e4d, [0x6f, 0x303, 0x301]), (0x1e4e, [0x4f, 0x303, 0x308]),
  (0x1e4f, [0x6f, 0x303, 0x308]), (0x1e50, [0x4f, 0x304, 0x300]), (0x1e51, [0x6f, 0x304, 0x300]), (0x1e52, [0x4f, 0x304, 0x301]),
  (0x1e53, [0x6f, 0x304, 0x301]), (0x1e54, [0x50, 0x301]), (0x1e55, [0x70, 0x301]), (0x1e56, [0x50, 0x307]), (0x1e57, [0x70, 0x307]),
  (0x1e58, [0x52, 0x307]), (0x1e59, [0x72, 0x307]), (0x1e5a, [0x52, 0x323]), (0x1e5b, [0x72, 0x323]), (0x1e5c, [0x52, 0x323, 0x304]),
  (0x1e5d, [0x72, 0x323, 0x304]), (0x1e5e, [0x52, 0x331]), (0x1e5f, [0x72, 0x331]), (0x1e60, [0x53, 0x307]), (0x1e61, [0x73, 0x307]),
  (0x1e62, [0x53, 0x323]), (0x1e63, [0x73, 0x323]), (0x1e64, [0x53, 0x301, 0x307]), (0x1e65, [0x73, 0x301, 0x307]), (0x1e66, [0x53, 0x30c, 0x307]),
  (0x1e67, [0x73, 0x30c, 0x307]), (0x1e68, [0x53, 0x323, 0x307]), (0x1e69, [0x73, 0x323, 0x307]), (0x1e6a, [0x54, 0x307]), (0x1e6b, [0x74, 0x307]),
  (0x1e6c, [0x54, 0x323]), (0x1e6d, [0x74, 0x323]), (0x1e6e, [0x54, 0x331]), (0x1e6f, [0x74, 0x331]), (0x1e70, [0x54, 0x32d]),
  (0x1e71, [0x74, 0x32d]), (0x1e72, [0x55, 0x324]), (0x1e73, [0x75, 0x324]), (0x1e74, [0x55, 0x330]), (0x1e75, [0x75, 0x330]),
  (0x1e76, [0x55, 0x32d]), (0x1e77, [0x75, 0x32d]), (0x1e78, [0x55, 0x303, 0x301]), (0x1e79, [0x75, 0x303, 0x301]), (0x1e7a, [0x55, 0x304, 0x308]),
  (0x1e7b, [0x75, 0x304, 0x308]), (0x1e7c, [0x56, 0x303]), (0x1e7d, [0x76, 0x303]), (0x1e7e, [0x56, 0x323]), (0x1e7f, [0x76, 0x323]),
  (0x1e80, [0x57, 0x300]), (0x1e81, [0x77, 0x300]), (0x1e82, [0x57, 0x301]), (0x1e83, [0x77, 0x301]), (0x1e84, [0x57, 0x308]),
  (0x1e85, [0x77, 0x308]), (0x1e86, [0x57, 0x307]), (0x1e87, [0x77, 0x307]), (0x1e88, [0x57, 0x323]), (0x1e89, [0x77, 0x323]),
  (0x1e8a, [0x58, 0x307]), (0x1e8b, [0x78, 0x307]), (0x1e8c, [0x58, 0x308]), (0x1e8d, [0x78, 0x308]), (0x1e8e, [0x59, 0x307]),
  (0x1e8f, [0x79, 0x307]), (0x1e90, [0x5a, 0x302]), (0x1e91, [0x7a, 0x302]), (0x1e92, [0x5a, 0x323]), (0x1e93, [0x7a, 0x323]),
  (0x1e94, [0x5a, 0x331]), (0x1e95, [0x7a, 0x331]), (0x1e96, [0x68, 0x331]), (0x1e97, [0x74, 0x308]), (0x1e98, [0x77, 0x30a]),
  (0x1e99, [0x79, 0x30a]), (0x1e9b, [0x17f, 0x307]), (0x1ea0, [0x41, 0x323]), (0x1ea1, [0x61, 0x323]), (0x1ea2, [0x41, 0x309]),
  (0x1ea3, [0x61, 0x309]), (0x1ea4, [0x41, 0x302, 0x301]), (0x1ea5, [0x61, 0x302, 0x301]), (0x1ea6, [0x41, 0x302, 0x300]),
  (0x1ea7, [0x61, 0x302, 0x300]), (0x1ea8, [0x41, 0x302, 0x309]), (0x1ea9, [0x61, 0x302, 0x309]), (0x1eaa, [0x41, 0x302, 0x303]),
  (0x1eab, [0x61, 0x302, 0x303]), (0x1eac, [0x41, 0x323, 0x302]), (0x1ead, [0x61, 0x323, 0x302]), (0x1eae, [0x41, 0x306, 0x301]),
  (0x1eaf, [0x61, 0x306, 0x301]), (0x1eb0, [0x41, 0x306, 0x300]), (0x1eb1, [0x61, 0x306, 0x300]), (0x1eb2, [0x41, 0x306, 0x309]),
  (0x1eb3, [0x61, 0x306, 0x309]), (0x1eb4, [0x41, 0x306, 0x303]), (0x1eb5, [0x61, 0x306, 0x303]), (0x1eb6, [0x41, 0x323, 0x306]),
  (0x1eb7, [0x61, 0x323, 0x306]), (0x1eb8, [0x45, 0x323]), (0x1eb9, [0x65, 0x323]), (0x1eba, [0x45, 0x309]), (0x1ebb, [0x65, 0x309]),
  (0x1ebc, [0x45, 0x303]), (0x1ebd, [0x65, 0x303]), (0x1ebe, [0x45, 0x302, 0x301]), (0x1ebf, [0x65, 0x302, 0x301]), (0x1ec0, [0x45, 0x302, 0x300]),
  (0x1ec1, [0x65, 0x302, 0x300]), (0x1ec2, [0x45, 0x302, 0x309]), (0x1ec3, [0x65, 0x302, 0x309]), (0x1ec4, [0x45, 0x302, 0x303]),
  (0x1ec5, [0x65, 0x302, 0x303]), (0x1ec6, [0x45, 0x323, 0x302]), (0x1ec7, [0x65, 0x323, 0x302]), (0x1ec8, [0x49, 0x309]), (0x1ec9, [0x69, 0x309]),
  (0x1eca, [0x49, 0x323]), (0x1ecb, [0x69, 0x323]), (0x1ecc, [0x4f, 0x323]), (0x1ecd, [0x6f, 0x323]), (0x1ece, [0x4f, 0x309]),
  (0x1ecf, [0x6f, 0x309]), (0x1ed0, [0x4f, 0x302, 0x301]), (0x1ed1, [0x6f, 0x302, 0x301]), (0x1ed2, [0x4f, 0x302, 0x300]),
  (0x1ed3, [0x6f, 0x302, 0x300]), (0x1ed4, [0x4f, 0x302, 0x309]), (0x1ed5, [0x6f, 0x302, 0x309]), (0x1ed6, [0x4f, 0x302, 0x303]),
  (0x1ed7, [0x6f, 0x302, 0x303]), (0x1ed8, [0x4f, 0x323, 0x302]), (0x1ed9, [0x6f, 0x323, 0x302]), (0x1eda, [0x4f, 0x31b, 0x301]),
  (0x1edb, [0x6f, 0x31b, 0x301]), (0x1edc, [0x4f, 0x31b, 0x300]), (0x1edd, [0x6f, 0x31b, 0x300]), (0x1ede, [0x4f, 0x31b, 0x309]),
  (0x1edf, [0x6f, 0x31b, 0x309]), (0x1ee0, [0x4f, 0x31b, 0x303]), (0x1ee1, [0x6f, 0x31b, 0x303]), (0x1ee2, [0x4f, 0x31b, 0x323]),
  (0x1ee3, [0x6f, 0x31b, 0x323]), (0x1ee4, [0x55, 0x323]), (0x1ee5, [0x75, 0x323]), (0x1ee6, [0x55, 0x309]), (0x1ee7, [0x75, 0x309]),
  (0x1ee8, [0x55, 0x31b, 0x301]), (0x1ee9, [0x75, 0x31b, 0x301]), (0x1eea, [0x55, 0x31b, 0x300]), (0x1eeb, [0x75, 0x31b, 0x300]),
  (0x1eec, [0x55, 0x31b, 0x309]), (0x1eed, [0x75, 0x31b, 0x309]), (0x1eee, [0x55, 0x31b, 0x303]), (0x1eef, [0x75, 0x31b, 0x303]),
  (0x1ef0, [0x55, 0x31b, 0x323]), (0x1ef1, [0x75, 0x31b, 0x323]), (0x1ef2, [0x59, 0x300]), (0x1ef3, [0x79, 0x300]), (0x1ef4, [0x59, 0x323]),
  (0x1ef5, [0x79, 0x323]), (0x1ef6, [0x59, 0x309]), (0x1ef7, [0x79, 0x309]), (0x1ef8, [0x59, 0x303]), (0x1ef9, [0x79, 0x303])]

/-- full canonical decompositions, without Hangul syllables, U+1F00 to U+1FFF -/
def decomposition1f : List (Nat × List Nat) := [
  (0x1f00, [0x3b1, 0x313]), (0x1f01, [0x3b1, 0x314]), (0x1f02, [0x3b1, 0x313, 0x300]), (0x1f03, [0x3b1, 0x314, 0x300]),
  (0x1f04, [0x3b1, 0x313, 0x301]), (0x1f05, [0x3b1, 0x314, 0x301]), (0x1f06, [0x3b1, 0x313, 0x342]), (0x1f07, [0x3b1, 0x314, 0x342]),
  (0x1f08, [0x391, 0x313]), (0x1f09, [0x391, 0x314]), (0x1f0a, [0x391, 0x313, 0x300]), (0x1f0b, [0x391, 0x314, 0x300]),
  (0x1f0c, [0x391, 0x313, 0x301]), (0x1f0d, [0x391, 0x314, 0x301]), (0x1f0e, [0x391, 0x313, 0x342]), (0x1f0f, [0x391, 0x314, 0x342]),
  (0x1f10, [0x3b5, 0x313]), (0x1f11, [0x3b5, 0x314]), (0x1f12, [0x3b5, 0x313, 0x300]), (0x1f13, [0x3b5, 0x314, 0x300]),
  (0x1f14, [0x3b5, 0x313, 0x301]), (0x1f15, [0x3b5, 0x314, 0x301]), (0x1f18, [0x395, 0x313]), (0x1f19, [0x395, 0x314]),
  (0x1f1a, [0x395, 0x313, 0x300]), (0x1f1b, [0x395, 0x314, 0x300]), (0x1f1c, [0x395, 0x313, 0x301]), (0x1f1d, [0x395, 0x314, 0x301]),
  (0x1f20, [0x3b7, 0x313]), (0x1f21, [0x3b7, 0x314]), (0x1f22, [0x3b7, 0x313, 0x300]), (0x1f23, [0x3b7, 0x314, 0x300]),
  (0x1f24, [0x3b7, 0x313, 0x301]), (0x1f25, [0x3b7, 0x314, 0x301]), (0x1f26, [0x3b7, 0x313, 0x342]), (0x1f27, [0x3b7, 0x314, 0x342]),
  (0x1f28, [0x397, 0x313]), (0x1f29, [0x397, 0x314]), (0x1f2a, [0x397, 0x313, 0x300]), (0x1f2b, [0x397, 0x314, 0x300]),
  (0x1f2c, [0x397, 0x313, 0x301]), (0x1f2d, [0x397, 0x314, 0x301]), (0x1f2e, [0x397, 0x313, 0x342]), (0x1f2f, [0x397, 0x314, 0x342]),
  (0x1f30, [0x3b9, 0x313]), (0x1f31, [0x3b9, 0x314]), (0x1f32, [0x3b9, 0x313, 0x300]), (0x1f33, [0x3b9, 0x314, 0x300]),
  (0x1f34, [0x3b9, 0x313, 0x301]), (0x1f35, [0x3b9, 0x314, 0x301]), (0x1f36, [0x3b9, 0x313, 0x342]), (0x1f37, [0x3b9, 0x314, 0x342]),
  (0x1f38, [0x399, 0x313]), (0x1f39, [0x399, 0x314]), (0x1f3a, [0x399, 0x313, 0x300]), (0x1f3b, [0x399, 0x314, 0x300]),
  (0x1f3c, [0x399, 0x313, 0x301]), (0x1f3d, [0x399, 0x314, 0x301]), (0x1f3e, [0x399, 0x313, 0x342]), (0x1f3f, [0x399, 0x314, 0x342]),
  (0x1f40, [0x3bf, 0x313]), (0x1f41, [0x3bf, 0x314]), (0x1f42, [0x3bf, 0x313, 0x300]), (0x1f43, [0x3bf, 0x314, 0x300]),
  (0x1f44, [0x3bf, 0x313, 0x301]), (0x1f45, [0x3bf, 0x314, 0x301]), (0x1f48, [0x39f, 0x313]), (0x1f49, [0x39f, 0x314]),
  (0x1f4a, [0x39f, 0x313, 0x300]), (0x1f4b, [0x39f, 0x314, 0x300]), (0x1f4c, [0x39f, 0x313, 0x301]), (0x1f4d, [0x39f, 0x314, 0x301]),
  (0x1f50, [0x3c5, 0x313]), (0x1f51, [0x3c5, 0x314]), (0x1f52, [0x3c5, 0x313, 0x300]), (0x1f53, [0x3c5, 0x314, 0x300]),
  (0x1f54, [0x3c5, 0x313, 0x301]), (0x1f55, [0x3c5, 0x314, 0x301]), (0x1f56, [0x3c5, 0x313, 0x342]), (0x1f57, [0x3c5, 0x314, 0x342]),
  (0x1f59, [0x3a5, 0x314]), (0x1f5b, [0x3a5, 0x314, 0x300]), (0x1f5d, [0x3a5, 0x314, 0x301]), (0x1f5f, [0x3a5, 0x314, 0x342]),
  (0x1f60, [0x3c9, 0x313]), (0x1f61, [0x3c9, 0x314]), (0x1f62, [0x3c9, 0x313, 0x300]), (0x1f63, [0x3c9, 0x314, 0x300]),
  (0x1f64, [0x3c9, 0x313, 0x301]), (0x1f65, [0x3c9, 0x314, 0x301]), (0x1f66, [0x3c9, 0x313, 0x342]), (0x1f67, [0x3c9, 0x314, 0x342]),
  (0x1f68, [0x3a9, 0x313]), (0x1f69, [0x3a9, 0x314]), (0x1f6a, [0x3a9, 0x313, 0x300]), (0x1f6b, [0x3a9, 0x314, 0x300]),
  (0x1f6c, [0x3a9, 0x313, 0x301]), (0x1f6d, [0x3a9, 0x314, 0x301]), (0x1f6e, [0x3a9, 0x313, 0x342]), (0x1f6f, [0x3a9, 0x314, 0x342]),
  (0x1f70, [0x3b1, 0x300]), (0x1f71, [0x3b1, 0x301]), (0x1f72, [0x3b5, 0x300]), (0x1f73, [0x3b5, 0x301]), (0x1f74, [0x3b7, 0x300]),
  (0x1f75, [0x3b7, 0x301]), (0x1f76, [0x3b9, 0x300]), (0x1f77, [0x3b9, 0x301]), (0x1f78, [0x3bf, 0x300]), (0x1f79, [0x3bf, 0x301]),
  (0x1f7a, [0x3c5, 0x300]), (0x1f7b, [0x3c5, 0x301]), (0x1f7c, [0x3c9, 0x300]), (0x1f7d, [0x3c9, 0x301]), (0x1f80, [0x3b1, 0x313, 0x345]),
  (0x1f81, [0x3b1, 0x314, 0x345]), (0x1f82, [0x3b1, 0x313, 0x300, 0x345]), (0x1f83, [0x3b1, 0x314, 0x300, 0x345]),
  (0x1f84, [0x3b1, 0x313, 0x301, 0x345]), (0x1f85, [0x3b1, 0x314, 0x301, 0x345]), (0x1f86, [0x3b1, 0x313, 0x342, 0x345]),
  (0x1f87, [0x3b1, 0x314, 0x342, 0x345]), (0x1f88, [0x391, 0x313, 0x345]), (0x1f89, [0x391, 0x314, 0x345]), (0x1f8a, [0x391, 0x313, 0x300, 0x345]),
  (0x1f8b, [0x391, 0x314, 0x300, 0x345]), (0x1f8c, [0x391, 0x313, 0x301, 0x345]), (0x1f8d, [0x391, 0x314, 0x301, 0x345]),
  (0x1f8e, [0x391, 0x313, 0x342, 0x345]), (0x1f8f, [0x391, 0x314, 0x342, 0x345]), (0x1f90, [0x3b7, 0x313, 0x345]), (0x1f91, [0x3b7, 0x314, 0x345]),
  (0x1f92, [0x3b7, 0x313, 0x300, 0x345]), (0x1f93, [0x3b7, 0x314, 0x300, 0x345]), (0x1f94, [0x3b7, 0x313, 0x301, 0x345]),
  (0x1f95, [0x3b7, 0x314, 0x301, 0x345]), (0x1f96, [0x3b7, 0x313, 0x342, 0x345]), (0x1f97, [0x3b7, 0x314, 0x342, 0x345]),
  (0x1f98, [0x397, 0x313, 0x345]), (0x1f99, [0x397, 0x314, 0x345]), (0x1f9a, [0x397, 0x313, 0x300, 0x345]), (0x1f9b, [0x397, 0x314, 0x300, 0x345]),
  (0x1f9c, [0x397, 0x313, 0x301, 0x345]), (0x1f9d, [0x397, 0x314, 0x301, 0x345]), (0x1f9e, [0x397, 0x313, 0x342, 0x345]),
  (0x1f9f, [0x397, 0x314, 0x342, 0x345]), (0x1fa0, [0x3c9, 0x313, 0x345]), (0x1fa1, [0x3c9, 0x314, 0x345]), (0x1fa2, [0x3c9, 0x313, 0x300, 0x345]),
  (0x1fa3, [0x3c9, 0x314, 0x300, 0x345]), (0x1fa4, [0x3c9, 0x313, 0x301, 0x345]), (0x1fa5, [0x3c9, 0x314, 0x301, 0x345]),
  (0x1fa6, [0x3c9, 0x313, 0x342, 0x345]), (0x1fa7, [0x3c9, 0x314, 0x342, 0x345]), (0x1fa8, [0x3a9, 0x313, 0x345]), (0x1fa9, [0x3a9, 0x314, 0x345]),
  (0x1faa, [0x3a9, 0x313, 0x300, 0x345]), (0x1fab, [0x3a9, 0x314, 0x300, 0x345]), (0x1fac, [0x3a9, 0x313, 0x301, 0x345]),
  (0x1fad, [0x3a9, 0x314, 0x301, 0x345]), (0x1fae, [0x3a9, 0x313, 0x342, 0x345]), (0x1faf, [0x3a9, 0x314, 0x342, 0x345]), (0x1fb0, [0x3b1, 0x306]),
  (0x1fb1, [0x3b1, 0x304]), (0x1fb2, [0x3b1, 0x300, 0x345]), (0x1fb3, [0x3b1, 0x345]), (0x1fb4, [0x3b1, 0x301, 0x345]), (0x1fb6, [0x3b1, 0x342]),
  (0x1fb7, [0x3b1, 0x342, 0x345]), (0x1fb8, [0x391, 0x306]), (0x1fb9, [0x391, 0x304]), (0x1fba, [0x391, 0x300]), (0x1fbb, [0x391, 0x301]),
  (0x1fbc, [0x391, 0x345]), (0x1fbe, [0x3b9]), (0x1fc1, [0xa8, 0x342]), (0x1fc2, [0x3b7, 0x300, 0x345]), (0x1fc3, [0x3b7, 0x345]),
  (0x1fc4, [0x3b7, 0x301, 0x345]), (0x1fc6, [0x3b7, 0x342]), (0x1fc7, [0x3b7, 0x342, 0x345]), (0x1fc8, [0x395, 0x300]), (0x1fc9, [0x395, 0x301]),
  (0x1fca, [0x397, 0x300]), (0x1fcb, [0x397, 0x301]), (0x1fcc, [0x397, 0x345]), (0x1fcd, [0x1fbf, 0x300]), (0x1fce, [0x1fbf, 0x301]),
  (0x1fcf, [0x1fbf, 0x342]), (0x1fd0, [0x3b9, 0x306]), (0x1fd1, [0x3b9, 0x304]), (0x1fd2, [0x3b9, 0x308, 0x300]), (0x1fd3, [0x3b9, 0x308, 0x301]),
  (0x1fd6, [0x3b9, 0x342]), (0x1fd7, [0x3b9, 0x308, 0x342]), (0x1fd8, [0x399, 0x306]), (0x1fd9, [0x399, 0x304]), (0x1fda, [0x399, 0x300]),
  (0x1fdb, [0x399, 0x301]), (0x1fdd, [0x1ffe, 0x300]), (0x1fde, [0x1ffe, 0x301]), (0x1fdf, [0x1ffe, 0x342]), (0x1fe0, [0x3c5, 0x306]),
  (0x1fe1, [0x3c5, 0x304]), (0x1fe2, [0x3c5, 0x308, 0x300]), (0x1fe3, [0x3c5, 0x308, 0x301]), (0x1fe4, [0x3c1, 0x313]), (0x1fe5, [0x3c1, 0x314]),
  (0x1fe6, [0x3c5, 0x342]), (0x1fe7, [0x3c5, 0x308, 0x342]), (0x1fe8, [0x3a5, 0x306]), (0x1fe9, [0x3a5, 0x304]), (0x1fea, [0x3a5, 0x300]),
  (0x1feb, [0x3a5, 0x301]), (0x1fec, [0x3a1, 0x314]), (0x1fed, [0xa8, 0x300]), (0x1fee, [0xa8, 0x301]), (0x1fef, [0x60]),
  (0x1ff2, [0x3c9, 0x300, 0x345]), (0x1ff3, [0x3c9, 0x345]), (0x1ff4, [0x3c9, 0x301, 0x345]), (0x1ff6, [0x3c9, 0x342]),
  (0x1ff7, [0x3c9, 0x342, 0x345]), (0x1ff8, [0x39f, 0x300]), (0x1ff9, [0x39f, 0x301]), (0x1ffa, [0x3a9, 0x300]), (0x1ffb, [0x3a9, 0x301]),
  (0x1ffc, [0x3a9, 0x345]), (0x1ffd, [0xb4])]

/-- full canonical decompositions, without Hangul syllables, U+2000 to U+20FF -/
def decomposition20 : List (Nat × List Nat) := [
  (0x2000, [0x2002]), (0x2001, [0x2003])]

/-- full canonical decompositions, without Hangul syllables, U+2100 to U+21FF -/
def decomposition21 : List (Nat × List Nat) := [
  (0x2126, [0x3a9]), (0x212a, [0x4b]), (0x212b, [0x41, 0x30a]), (0x219a, [0x2190, 0x338]), (0x219b, [0x2192, 0x338]), (0x21ae, [0x2194, 0x338]),
  (0x21cd, [0x21d0, 0x338]), (0x21ce, [0x21d4, 0x338]), (0x21cf, [0x21d2, 0x338])]

/-- full canonical decompositions, without Hangul syllables, U+2200 to U+22FF -/
def decomposition22 : List (Nat × List Nat) := [
  (0x2204, [0x2203, 0x338]), (0x2209, [0x2208, 0x338]), (0x220c, [0x220b, 0x338]), (0x2224, [0x2223, 0x338]), (0x2226, [0x2225, 0x338]),
  (0x2241, [0x223c, 0x338]), (0x2244, [0x2243, 0x338]), (0x2247, [0x2245, 0x338]), (0x2249, [0x2248, 0x338]), (0x2260, [0x3d, 0x338]),
  (0x2262, [0x2261, 0x338]), (0x226d, [0x224d, 0x338]), (0x226e, [0x3c, 0x338]), (0x226f, [0x3e, 0x338]), (0x2270, [0x2264, 0x338]),
  (0x2271, [0x2265, 0x338]), (0x2274, [0x2272, 0x338]), (0x2275, [0x2273, 0x338]), (0x2278, [0x2276, 0x338]), (0x2279, [0x2277, 0x338]),
  (0x2280, [0x227a, 0x338]), (0x2281, [0x227b, 0x338]), (0x2284, [0x2282, 0x338]), (0x2285, [0x2283, 0x338]), (0x2288, [0x2286, 0x338]),
  (0x2289, [0x2287, 0x338]), (0x22ac, [0x22a2, 0x338]), (0x22ad, [0x22a8, 0x338]), (0x22ae, [0x22a9, 0x338]), (0x22af, [0x22ab, 0x338]),
  (0x22e0, [0x227c, 0x338]), (0x22e1, [0x227d, 0x338]), (0x22e2, [0x2291, 0x338]), (0x22e3, [0x2292, 0x338]), (0x22ea, [0x22b2, 0x338]),
  (0x22eb, [0x22b3, 0x338]), (0x22ec, [0x22b4, 0x338]), (0x22ed, [0x22b5, 0x338])]

/-- full canonical decompositions, without Hangul syllables, U+2300 to U+23FF -/
def decomposition23 : List (Nat × List Nat) := [
  (0x2329, [0x3008]), (0x232a, [0x3009])]

/-- full canonical decompositions, without Hangul syllables, U+2A00 to U+2AFF -/
def decomposition2a : List (Nat × List Nat) := [
  (0x2adc, [0x2add, 0x338])]

/-- full canonical decompositions, without Hangul syllables, U+3000 to U+30FF -/
def decomposition30 : List (Nat × List Nat) := [
  (0x304c, [0x304b, 0x3099]), (0x304e, [0x304d, 0x3099]), (0x3050, [0x304f, 0x3099]), (0x3052, [0x3051, 0x3099]), (0x3054, [0x3053, 0x3099]),
  (0x3056, [0x3055, 0x3099]), (0x3058, [0x3057, 0x3099]), (0x305a, [0x3059, 0x3099]), (0x305c, [0x305b, 0x3099]), (0x305e, [0x305d, 0x3099]),
  (0x3060, [0x305f, 0x3099]), (0x3062, [0x3061, 0x3099]), (0x3065, [0x3064, 0x3099]), (0x3067, [0x3066, 0x3099]), (0x3069, [0x3068, 0x3099]),
  (0x3070, [0x306f, 0x3099]), (0x3071, [0x306f, 0x309a]), (0x3073, [0x3072, 0x3099]), (0x3074, [0x3072, 0x309a]), (0x3076, [0x3075, 0x3099]),
  (0x3077, [0x3075, 0x309a]), (0x3079, [0x3078, 0x3099]), (0x307a, [0x3078, 0x309a]), (0x307c, [0x307b, 0x3099]), (0x307d, [0x307b, 0x309a]),
  (0x3094, [0x3046, 0x3099]), (0x309e, [0x309d, 0x3099]), (0x30ac, [0x30ab, 0x3099]), (0x30ae, [0x30ad, 0x3099]), (0x30b0, [0x30af, 0x3099]),
  (0x30b2, [0x30b1, 0x3099]), (0x30b4, [0x30b3, 0x3099]), (0x30b6, [0x30b5, 0x3099]), (0x30b8, [0x30b7, 0x3099]), (0x30ba, [0x30b9, 0x3099]),
  (0x30bc, [0x30bb, 0x3099]), (0x30be, [0x30bd, 0x3099]), (0x30c0, [0x30bf, 0x3099]), (0x30c2, [0x30c1, 0x3099]), (0x30c5, [0x30c4, 0x3099]),
  (0x30c7, [0x30c6, 0x3099]), (0x30c9, [0x30c8, 0x3099]), (0x30d0, [0x30cf, 0x3099]), (0x30d1, [0x30cf, 0x309a]), (0x30d3, [0x30d2, 0x3099]),
  (0x30d4, [0x30d2, 0x309a]), (0x30d6, [0x30d5, 0x3099]), (0x30d7, [0x30d5, 0x309a]), (0x30d9, [0x30d8, 0x3099]), (0x30da, [0x30d8, 0x309a]),
  (0x30dc, [0x30db, 0x3099]), (0x30dd, [0x30db, 0x309a]), (0x30f4, [0x30a6, 0x3099]), (0x30f7, [0x30ef, 0x3099]), (0x30f8, [0x30f0, 0x3099]),
  (0x30f9, [0x30f1, 0x3099]), (0x30fa, [0x30f2, 0x3099]), (0x30fe, [0x30fd, 0x3099])]

/-- full canonical decompositions, without Hangul syllables, U+F900 to U+F9FF -/
def decompositionf9 : List (Nat × List Nat) := [
  (0xf900, [0x8c48]), (0xf901, [0x66f4]), (0xf902, [0x8eca]), (0xf903, [0x8cc8]), (0xf904, [0x6ed1]), (0xf905, [0x4e32]), (0xf906, [0x53e5]),
  (0xf907, [0x9f9c]), (0xf908, [0x9f9c]), (0xf909, [0x5951]), (0xf90a, [0x91d1]), (0xf90b, [0x5587]), (0xf90c, [0x5948]), (0xf90d, [0x61f6]),
  (0xf90e, [0x7669]), (0xf90f, [0x7f85]), (0xf910, [0x863f]), (0xf911, [0x87ba]), (0xf912, [0x88f8]), (0xf913, [0x908f]), (0xf914, [0x6a02]),
  (0xf915, [0x6d1b]), (0xf916, [0x70d9]), (0xf917, [0x73de]), (0xf918, [0x843d]), (0xf919, [0x916a]), (0xf91a, [0x99f1]), (0xf91b, [0x4e82]),
  (0xf91c, [0x5375]), (0xf91d, [0x6b04]), (0xf91e, [0x721b]), (0xf91f, [0x862d]), (0xf920, [0x9e1e]), (0xf921, [0x5d50]), (0xf922, [0x6feb]),
  (0xf923, [0x85cd]), (0xf924, [0x8964]), (0xf925, [0x62c9]), (0xf926, [0x81d8]), (0xf927, [0x881f]), (0xf928, [0x5eca]), (0xf929, [0x6717]),
  (0xf92a, [0x6d6a]), (0xf92b, [0x72fc]), (0xf92c, [0x90ce]), (0xf92d, [0x4f86]), (0xf92e, [0x51b7]), (0xf92f, [0x52de]), (0xf930, [0x64c4]),
  (0xf931, [0x6ad3]), (0xf932, [0x7210]), (0xf933, [0x76e7]), (0xf934, [0x8001]), (0xf935, [0x8606]), (0xf936, [0x865c]), (0xf937, [0x8def]),
  (0xf938, [0x9732]), (0xf939, [0x9b6f]), (0xf93a, [0x9dfa]), (0xf93b, [0x788c]), (0xf93c, [0x797f]), (0xf93d, [0x7da0]), (0xf93e, [0x83c9]),
  (0xf93f, [0x9304]), (0xf940, [0x9e7f]), (0xf941, [0x8ad6]), (0xf942, [0x58df]), (0xf943, [0x5f04]), (0xf944, [0x7c60]), (0xf945, [0x807e]),
  (0xf946, [0x7262]), (0xf947, [0x78ca]), (0xf948, [0x8cc2]), (0xf949, [0x96f7]), (0xf94a, [0x58d8]), (0xf94b, [0x5c62]), (0xf94c, [0x6a13]),
  (0xf94d, [0x6dda]), (0xf94e, [0x6f0f]), (0xf94f, [0x7d2f]), (0xf950, [0x7e37]), (0xf951, [0x964b]), (0xf952, [0x52d2]), (0xf953, [0x808b]),
  (0xf954, [0x51dc]), (0xf955, [0x51cc]), (0xf956, [0x7a1c]), (0xf957, [0x7dbe]), (0xf958, [0x83f1]), (0xf959, [0x9675]), (0xf95a, [0x8b80]),
  (0xf95b, [0x62cf]), (0xf95c, [0x6a02]), (0xf95d, [0x8afe]), (0xf95e, [0x4e39]), (0xf95f, [0x5be7]), (0xf960, [0x6012]), (0xf961, [0x7387]),
  (0xf962, [0x7570]), (0xf963, [0x5317]), (0xf964, [0x78fb]), (0xf965, [0x4fbf]), (0xf966, [0x5fa9]), (0xf967, [0x4e0d]), (0xf968, [0x6ccc]),
  (0xf969, [0x6578]), (0xf96a, [0x7d22]), (0xf96b, [0x53c3]), (0xf96c, [0x585e]), (0xf96d, [0x7701]), (0xf96e, [0x8449]), (0xf96f, [0x8aaa]),
  (0xf970, [0x6bba]), (0xf971, [0x8fb0]), (0xf972, [0x6c88]), (0xf973, [0x62fe]), (0xf974, [0x82e5]), (0xf975, [0x63a0]), (0xf976, [0x7565]),
  (0xf977, [0x4eae]), (0xf978, [0x5169]), (0xf979, [0x51c9]), (0xf97a, [0x6881]), (0xf97b, [0x7ce7]), (0xf97c, [0x826f]), (0xf97d, [0x8ad2]),
  (0xf97e, [0x91cf]), (0xf97f, [0x52f5]), (0xf980, [0x5442]), (0xf981, [0x5973]), (0xf982, [0x5eec]), (0xf983, [0x65c5]), (0xf984, [0x6ffe]),
  (0xf985, [0x792a]), (0xf986, [0x95ad]), (0xf987, [0x9a6a]), (0xf988, [0x9e97]), (0xf989, [0x9ece]), (0xf98a, [0x529b]), (0xf98b, [0x66c6]),
  (0xf98c, [0x6b77]), (0xf98d, [0x8f62]), (0xf98e, [0x5e74]), (0xf98f, [0x6190]), (0xf990, [0x6200]), (0xf991, [0x649a]), (0xf992, [0x6f23]),
  (0xf993, [0x7149]), (0xf994, [0x7489]), (0xf995, [0x79ca]), (0xf996, [0x7df4]), (0xf997, [0x806f]), (0xf998, [0x8f26]), (0xf999, [0x84ee]),
  (0xf99a, [0x9023]), (0xf99b, [0x934a]), (0xf99c, [0x5217]), (0xf99d, [0x52a3]), (0xf99e, [0x54bd]), (0xf99f, [0x70c8]), (0xf9a0, [0x88c2]),
  (0xf9a1, [0x8aaa]), (0xf9a2, [0x5ec9]), (0xf9a3, [0x5ff5]), (0xf9a4, [0x637b]), (0xf9a5, [0x6bae]), (0xf9a6, [0x7c3e]), (0xf9a7, [0x7375]),
  (0xf9a8, [0x4ee4]), (0xf9a9, [0x56f9]), (0xf9aa, [0x5be7]), (0xf9ab, [0x5dba]), (0xf9ac, [0x601c]), (0xf9ad, [0x73b2]), (0xf9ae, [0x7469]),
  (0xf9af, [0x7f9a]), (0xf9b0, [0x8046]), (0xf9b1, [0x9234]), (0xf9b2, [0x96f6]), (0xf9b3, [0x9748]), (0xf9b4, [0x9818]), (0xf9b5, [0x4f8b]),
  (0xf9b6, [0x79ae]), (0xf9b7, [0x91b4]), (0xf9b8, [0x96b8]), (0xf9b9, [0x60e1]), (0xf9ba, [0x4e86]), (0xf9bb, [0x50da]), (0xf9bc, [0x5bee]),
  (0xf9bd, [0x5c3f]), (0xf9be, [0x6599]), (0xf9bf, [0x6a02]), (0xf9c0, [0x71ce]), (0xf9c1, [0x7642]), (0xf9c2, [0x84fc]), (0xf9c3, [0x907c]),
  (0xf9c4, [0x9f8d]), (0xf9c5, [0x6688]), (0xf9c6, [0x962e]), (0xf9c7, [0x5289]), (0xf9c8, [0x677b]), (0xf9c9, [0x67f3]), (0xf9ca, [0x6d41]),
  (0xf9cb, [0x6e9c]), (0xf9cc, [0x7409]), (0xf9cd, [0x7559]), (0xf9ce, [0x786b]), (0xf9cf, [0x7d10]), (0xf9d0, [0x985e]), (0xf9d1, [0x516d]),
  (0xf9d2, [0x622e]), (0xf9d3, [0x9678]), (0xf9d4, [0x502b]), (0xf9d5, [0x5d19]), (0xf9d6, [0x6dea]), (0xf9d7, [0x8f2a]), (0xf9d8, [0x5f8b]),
  (0xf9d9, [0x6144]), (0xf9da, [0x6817]), (0xf9db, [0x7387]), (0xf9dc, [0x9686]), (0xf9dd, [0x5229]), (0xf9de, [0x540f]), (0xf9df, [0x5c65]),
  (0xf9e0, [0x6613]), (0xf9e1, [0x674e]), (0xf9e2, [0x68a8]), (0xf9e3, [0x6ce5]), (0xf9e4, [0x7406]), (0xf9e5, [0x75e2]), (0xf9e6, [0x7f79]),
  (0xf9e7, [0x88cf]), (0xf9e8, [0x88e1]), (0xf9e9, [0x91cc]), (0xf9ea, [0x96e2]), (0xf9eb, [0x533f]), (0xf9ec, [0x6eba]), (0xf9ed, [0x541d]),
  (0xf9ee, [0x71d0]), (0xf9ef, [0x7498]), (0xf9f0, [0x85fa]), (0xf9f1, [0x96a3]), (0xf9f2, [0x9c57]), (0xf9f3, [0x9e9f]), (0xf9f4, [0x6797]),
  (0xf9f5, [0x6dcb]), (0xf9f6, [0x81e8]), (0xf9f7, [0x7acb]), (0xf9f8, [0x7b20]), (0xf9f9, [0x7c92]), (0xf9fa, [0x72c0]), (0xf9fb, [0x7099]),
  (0xf9fc, [0x8b58]), (0xf9fd, [0x4ec0]), (0xf9fe, [0x8336]), (0xf9ff, [0x523a])]

/-- full canonical decompositions, without Hangul syllables, U+FA00 to U+FAFF -/
def decompositionfa : List (Nat × List Nat) := [
  (0xfa00, [0x5207]), (0xfa01, [0x5ea6]), (0xfa02, [0x62d3]), (0xfa03, [0x7cd6]), (0xfa04, [0x5b85]), (0xfa05, [0x6d1e]), (0xfa06, [0x66b4]),
  (0xfa07, [0x8f3b]), (0xfa08, [0x884c]), (0xfa09, [0x964d]), (0xfa0a, [0x898b]), (0xfa0b, [0x5ed3]), (0xfa0c, [0x5140]), (0xfa0d, [0x55c0]),
  (0xfa10, [0x585a]), (0xfa12, [0x6674]), (0xfa15, [0x51de]), (0xfa16, [0x732a]), (0xfa17, [0x76ca]), (0xfa18, [0x793c]), (0xfa19, [0x795e]),
  (0xfa1a, [0x7965]), (0xfa1b, [0x798f]), (0xfa1c, [0x9756]), (0xfa1d, [0x7cbe]), (0xfa1e, [0x7fbd]), (0xfa20, [0x8612]), (0xfa22, [0x8af8]),
  (0xfa25, [0x9038]), (0xfa26, [0x90fd]), (0xfa2a, [0x98ef]), (0xfa2b, [0x98fc]), (0xfa2c, [0x9928]), (0xfa2d, [0x9db4]), (0xfa2e, [0x90de]),
  (0xfa2f, [0x96b7]), (0xfa30, [0x4fae]), (0xfa31, [0x50e7]), (0xfa32, [0x514d]), (0xfa33, [0x52c9]), (0xfa34, [0x52e4]), (0xfa35, [0x5351]),
  (0xfa36, [0x559d]), (0xfa37, [0x5606]), (0xfa38, [0x5668]), (0xfa39, [0x5840]), (0xfa3a, [0x58a8]), (0xfa3b, [0x5c64]), (0xfa3c, [0x5c6e]),
  (0xfa3d, [0x6094]), (0xfa3e, [0x6168]), (0xfa3f, [0x618e]), (0xfa40, [0x61f2]), (0xfa41, [0x654f]), (0xfa42, [0x65e2]), (0xfa43, [0x6691]),
  (0xfa44, [0x6885]), (0xfa45, [0x6d77]), (0xfa46, [0x6e1a]), (0xfa47, [0x6f22]), (0xfa48, [0x716e]), (0xfa49, [0x722b]), (0xfa4a, [0x7422]),
  (0xfa4b, [0x7891]), (0xfa4c, [0x793e]), (0xfa4d, [0x7949]), (0xfa4e, [0x7948]), (0xfa4f, [0x7950]), (0xfa50, [0x7956]), (0xfa51, [0x795d]),
  (0xfa52, [0x798d]), (0xfa53, [0x798e]), (0xfa54, [0x7a40]), (0xfa55, [0x7a81]), (0xfa56, [0x7bc0]), (0xfa57, [0x7df4]), (0xfa58, [0x7e09]),
  (0xfa59, [0x7e41]), (0xfa5a, [0x7f72]), (0xfa5b, [0x8005]), (0xfa5c, [0x81ed]), (0xfa5d, [0x8279]), (0xfa5e, [0x8279]), (0xfa5f, [0x8457]),
  (0xfa60, [0x8910]), (0xfa61, [0x8996]), (0xfa62, [0x8b01]), (0xfa63, [0x8b39]), (0xfa64, [0x8cd3]), (0xfa65, [0x8d08]), (0xfa66, [0x8fb6]),
  (0xfa67, [0x9038]), (0xfa68, [0x96e3]), (0xfa69, [0x97ff]), (0xfa6a, [0x983b]), (0xfa6b, [0x6075]), (0xfa6c, [0x242ee]), (0xfa6d, [0x8218]),
  (0xfa70, [0x4e26]), (0xfa71, [0x51b5]), (0xfa72, [0x5168]), (0xfa73, [0x4f80]), (0xfa74, [0x5145]), (0xfa75, [0x5180]), (0xfa76, [0x52c7]),
  (0xfa77, [0x52fa]), (0xfa78, [0x559d]), (0xfa79, [0x5555]), (0xfa7a, [0x5599]), (0xfa7b, [0x55e2]), (0xfa7c, [0x585a]), (0xfa7d, [0x58b3]),
  (0xfa7e, [0x5944]), (0xfa7f, [0x5954]), (0xfa80, [0x5a62]), (0xfa81, [0x5b28]), (0xfa82, [0x5ed2]), (0xfa83, [0x5ed9]), (0xfa84, [0x5f69]),
  (0xfa85, [0x5fad]), (0xfa86, [0x60d8]), (0xfa87, [0x614e]), (0xfa88, [0x6108]), (0xfa89, [0x618e]), (0xfa8a, [0x6160]), (0xfa8b, [0x61f2]),
  (0xfa8c, [0x6234]), (0xfa8d, [0x63c4]), (0xfa8e, [0x641c]), (0xfa8f, [0x6452]), (0xfa90, [0x6556]), (0xfa91, [0x6674]), (0xfa92, [0x6717]),
  (0xfa93, [0x671b]), (0xfa94, [0x6756]), (0xfa95, [0x6b79]), (0xfa96, [0x6bba]), (0xfa97, [0x6d41]), (0xfa98, [0x6edb]), (0xfa99, [0x6ecb]),
  (0xfa9a, [0x6f22]), (0xfa9b, [0x701e]), (0xfa9c, [0x716e]), (0xfa9d, [0x77a7]), (0xfa9e, [0x7235]), (0xfa9f, [0x72af]), (0xfaa0, [0x732a]),
  (0xfaa1, [0x7471]), (0xfaa2, [0x7506]), (0xfaa3, [0x753b]), (0xfaa4, [0x761d]), (0xfaa5, [0x761f]), (0xfaa6, [0x76ca]), (0xfaa7, [0x76db]),
  (0xfaa8, [0x76f4]), (0xfaa9, [0x774a]), (0xfaaa, [0x7740]), (0xfaab, [0x78cc]), (0xfaac, [0x7ab1]), (0xfaad, [0x7bc0]), (0xfaae, [0x7c7b]),
  (0xfaaf, [0x7d5b]), (0xfab0, [0x7df4]), (0xfab1, [0x7f3e]), (0xfab2, [0x8005]), (0xfab3, [0x8352]), (0xfab4, [0x83ef]), (0xfab5, [0x8779]),
  (0xfab6, [0x8941]), (0xfab7, [0x8986]), (0xfab8, [0x8996]), (0xfab9, [0x8abf]), (0xfaba, [0x8af8]), (0xfabb, [0x8acb]), (0xfabc, [0x8b01]),
  (0xfabd, [0x8afe]), (0xfabe, [0x8aed]), (0xfabf, [0x8b39]), (0xfac0, [0x8b8a]), (0xfac1, [0x8d08]), (0xfac2, [0x8f38]), (0xfac3, [0x9072]),
  (0xfac4, [0x9199]), (0xfac5, [0x9276]), (0xfac6, [0x967c]), (0xfac7, [0x96e3]), (0xfac8, [0x9756]), (0xfac9, [0x97db]), (0xfaca, [0x97ff]),
  (0xfacb, [0x980b]), (0xfacc, [0x983b]), (0xfacd, [0x9b12]), (0xface, [0x9f9c]), (0xfacf, [0x2284a]), (0xfad0, [0x22844]), (0xfad1, [0x233d5]),
  (0xfad2, [0x3b9d]), (0xfad3, [0x4018]), (0xfad4, [0x4039]), (0xfad5, [0x25249]), (0xfad6, [0x25cd0]), (0xfad7, [0x27ed3]), (0xfad8, [0x9f43]),
  (0xfad9, [0x9f8e])]

/-- full canonical decompositions, without Hangul syllables, U+FB00 to U+FBFF -/
def decompositionfb : List (Nat × List Nat) := [
  (0xfb1d, [0x5d9, 0x5b4]), (0xfb1f, [0x5f2, 0x5b7]), (0xfb2a, [0x5e9, 0x5c1]), (0xfb2b, [0x5e9, 0x5c2]), (0xfb2c, [0x5e9, 0x5bc, 0x5c1]),
  (0xfb2d, [0x5e9, 0x5bc, 0x5c2]), (0xfb2e, [0x5d0, 0x5b7]), (0xfb2f, [0x5d0, 0x5b8]), (0xfb30, [0x5d0, 0x5bc]), (0xfb31, [0x5d1, 0x5bc]),
  (0xfb32, [0x5d2, 0x5bc]), (0xfb33, [0x5d3, 0x5bc]), (0xfb34, [0x5d4, 0x5bc]), (0xfb35, [0x5d5, 0x5bc]), (0xfb36, [0x5d6, 0x5bc]),
  (0xfb38, [0x5d8, 0x5bc]), (0xfb39, [0x5d9, 0x5bc]), (0xfb3a, [0x5da, 0x5bc]), (0xfb3b, [0x5db, 0x5bc]), (0xfb3c, [0x5dc, 0x5bc]),
  (0xfb3e, [0x5de, 0x5bc]), (0xfb40, [0x5e0, 0x5bc]), (0xfb41, [0x5e1, 0x5bc]), (0xfb43, [0x5e3, 0x5bc]), (0xfb44, [0x5e4, 0x5bc]),
  (0xfb46, [0x5e6, 0x5bc]), (0xfb47, [0x5e7, 0x5bc]), (0xfb48, [0x5e8, 0x5bc]), (0xfb49, [0x5e9, 0x5bc]), (0xfb4a, [0x5ea, 0x5bc]),
  (0xfb4b, [0x5d5, 0x5b9]), (0xfb4c, [0x5d1, 0x5bf]), (0xfb4d, [0x5db, 0x5bf]), (0xfb4e, [0x5e4, 0x5bf])]

/-- full canonical decompositions, without Hangul syllables, U+11000 to U+110FF -/
def decomposition110 : List (Nat × List Nat) := [
  (0x1109a, [0x11099, 0x110ba]), (0x1109c, [0x1109b, 0x110ba]), (0x110ab, [0x110a5, 0x110ba])]

/-- full canonical decompositions, without Hangul syllables, U+11100 to U+111FF -/
def decomposition111 : List (Nat × List Nat) := [
  (0x1112e, [0x11131, 0x11127]), (0x1112f, [0x11132, 0x11127])]

/-- full canonical decompositions, without Hangul syllables, U+11300 to U+113FF -/
def decomposition113 : List (Nat × List Nat) := [
  (0x1134b, [0x11347, 0x1133e]), (0x1134c, [0x11347, 0x11357])]

/-- full canonical decompositions, without Hangul syllables, U+11400 to U+114FF -/
def decomposition114 : List (Nat × List Nat) := [
  (0x114bb, [0x114b9, 0x114ba]), (0x114bc, [0x114b9, 0x114b0]), (0x114be, [0x114b9, 0x114bd])]

/-- full canonical decompositions, without Hangul syllables, U+11500 to U+115FF -/
def decomposition115 : List (Nat × List Nat) := [
  (0x115ba, [0x115b8, 0x115af]), (0x115bb, [0x115b9, 0x115af])]

/-- full canonical decompositions, without Hangul syllables, U+11900 to U+119FF -/
def decomposition119 : List (Nat × List Nat) := [
  (0x11938, [0x11935, 0x11930])]

/-- full canonical decompositions, without Hangul syllables, U+1D100 to U+1D1FF -/
def decomposition1d1 : List (Nat × List Nat) := [
  (0x1d15e, [0x1d157, 0x1d165]), (0x1d15f, [0x1d158, 0x1d165]), (0x1d160, [0x1d158, 0x1d165, 0x1d16e]), (0x1d161, [0x1d158, 0x1d165, 0x1d16f]),
  (0x1d162, [0x1d158, 0x1d165, 0x1d170]), (0x1d163, [0x1d158, 0x1d165, 0x1d171]), (0x1d164, [0x1d158, 0x1d165, 0x1d172]),
  (0x1d1bb, [0x1d1b9, 0x1d165]), (0x1d1bc, [0x1d1ba, 0x1d165]), (0x1d1bd, [0x1d1b9, 0x1d165, 0x1d16e]), (0x1d1be, [0x1d1ba, 0x1d165, 0x1d16e]),
  (0x1d1bf, [0x1d1b9, 0x1d165, 0x1d16f]), (0x1d1c0, [0x1d1ba, 0x1d165, 0x1d16f])]

/-- full canonical decompositions, without Hangul syllables, U+2F800 to U+2F8FF -/
def decomposition2f8 : List (Nat × List Nat) := [
  (0x2f800, [0x4e3d]), (0x2f801, [0x4e38]), (0x2f802, [0x4e41]), (0x2f803, [0x20122]), (0x2f804, [0x4f60]), (0x2f805, [0x4fae]), (0x2f806, [0x4fbb]),
  (0x2f807, [0x5002]), (0x2f808, [0x507a]), (0x2f809, [0x5099]), (0x2f80a, [0x50e7]), (0x2f80b, [0x50cf]), (0x2f80c, [0x349e]), (0x2f80d, [0x2063a]),
  (0x2f80e, [0x514d]), (0x2f80f, [0x5154]), (0x2f810, [0x5164]), (0x2f811, [0x5177]), (0x2f812, [0x2051c]), (0x2f813, [0x34b9]), (0x2f814, [0x5167]),
  (0x2f815, [0x518d]), (0x2f816, [0x2054b]), (0x2f817, [0x5197]), (0x2f818, [0x51a4]), (0x2f819, [0x4ecc]), (0x2f81a, [0x51ac]), (0x2f81b, [0x51b5]),
  (0x2f81c, [0x291df]), (0x2f81d, [0x51f5]), (0x2f81e, [0x5203]), (0x2f81f, [0x34df]), (0x2f820, [0x523b]), (0x2f821, [0x5246]), (0x2f822, [0x5272]),
  (0x2f823, [0x5277]), (0x2f824, [0x3515]), (0x2f825, [0x52c7]), (0x2f826, [0x52c9]), (0x2f827, [0x52e4]), (0x2f828, [0x52fa]), (0x2f829, [0x5305]),
  (0x2f82a, [0x5306]), (0x2f82b, [0x5317]), (0x2f82c, [0x5349]), (0x2f82d, [0x5351]), (0x2f82e, [0x535a]), (0x2f82f, [0x5373]), (0x2f830, [0x537d]),
  (0x2f831, [0x537f]), (0x2f832, [0x537f]), (0x2f833, [0x537f]), (0x2f834, [0x20a2c]), (0x2f835, [0x7070]), (0x2f836, [0x53ca]), (0x2f837, [0x53df]),
  (0x2f838, [0x20b63]), (0x2f839, [0x53eb]), (0x2f83a, [0x53f1]), (0x2f83b, [0x5406]), (0x2f83c, [0x549e]), (0x2f83d, [0x5438]), (0x2f83e, [0x5448]),
  (0x2f83f, [0x5468]), (0x2f840, [0x54a2]), (0x2f841, [0x54f6]), (0x2f842, [0x5510]), (0x2f843, [0x5553]), (0x2f844, [0x5563]), (0x2f845, [0x5584]),
  (0x2f846, [0x5584]), (0x2f847, [0x5599]), (0x2f848, [0x55ab]), (0x2f849, [0x55b3]), (0x2f84a, [0x55c2]), (0x2f84b, [0x5716]), (0x2f84c, [0x5606]),
  (0x2f84d, [0x5717]), (0x2f84e, [0x5651]), (0x2f84f, [0x5674]), (0x2f850, [0x5207]), (0x2f851, [0x58ee]), (0x2f852, [0x57ce]), (0x2f853, [0x57f4]),
  (0x2f854, [0x580d]), (0x2f855, [0x578b]), (0x2f856, [0x5832]), (0x2f857, [0x5831]), (0x2f858, [0x58ac]), (0x2f859, [0x214e4]), (0x2f85a, [0x58f2]),
  (0x2f85b, [0x58f7]), (0x2f85c, [0x5906]), (0x2f85d, [0x591a]), (0x2f85e, [0x5922]), (0x2f85f, [0x5962]), (0x2f860, [0x216a8]),
  (0x2f861, [0x216ea]), (0x2f862, [0x59ec]), (0x2f863, [0x5a1b]), (0x2f864, [0x5a27]), (0x2f865, [0x59d8]), (0x2f866, [0x5a66]), (0x2f867, [0x36ee]),
  (0x2f868, [0x36fc]), (0x2f869, [0x5b08]), (0x2f86a, [0x5b3e]), (0x2f86b, [0x5b3e]), (0x2f86c, [0x219c8]), (0x2f86d, [0x5bc3]), (0x2f86e, [0x5bd8]),
  (0x2f86f, [0x5be7]), (0x2f870, [0x5bf3]), (0x2f871, [0x21b18]), (0x2f872, [0x5bff]), (0x2f873, [0x5c06]), (0x2f874, [0x5f53]), (0x2f875, [0x5c22]),
  (0x2f876, [0x3781]), (0x2f877, [0x5c60]), (0x2f878, [0x5c6e]), (0x2f879, [0x5cc0]), (0x2f87a, [0x5c8d]), (0x2f87b, [0x21de4]), (0x2f87c, [0x5d43]),
  (0x2f87d, [0x21de6]), (0x2f87e, [0x5d6e]), (0x2f87f, [0x5d6b]), (0x2f880, [0x5d7c]), (0x2f881, [0x5de1]), (0x2f882, [0x5de2]), (0x2f883, [0x382f]),
  (0x2f884, [0x5dfd]), (0x2f885, [0x5e28]), (0x2f886, [0x5e3d]), (0x2f887, [0x5e69]), (0x2f888, [0x3862]), (0x2f889, [0x22183]), (0x2f88a, [0x387c]),
  (0x2f88b, [0x5eb0]), (0x2f88c, [0x5eb3]), (0x2f88d, [0x5eb6]), (0x2f88e, [0x5eca]), (0x2f88f, [0x2a392]), (0x2f890, [0x5efe]),
  (0x2f891, [0x22331]), (0x2f892, [0x22331]), (0x2f893, [0x8201]), (0x2f894, [0x5f22]), (0x2f895, [0x5f22]), (0x2f896, [0x38c7]),
  (0x2f897, [0x232b8]), (0x2f898, [0x261da]), (0x2f899, [0x5f62]), (0x2f89a, [0x5f6b]), (0x2f89b, [0x38e3]), (0x2f89c, [0x5f9a]),
  (0x2f89d, [0x5fcd]), (0x2f89e, [0x5fd7]), (0x2f89f, [0x5ff9]), (0x2f8a0, [0x6081]), (0x2f8a1, [0x393a]), (0x2f8a2, [0x391c]), (0x2f8a3, [0x6094]),
  (0x2f8a4, [0x226d4]), (0x2f8a5, [0x60c7]), (0x2f8a6, [0x6148]), (0x2f8a7, [0x614c]), (0x2f8a8, [0x614e]), (0x2f8a9, [0x614c]), (0x2f8aa, [0x617a]),
  (0x2f8ab, [0x618e]), (0x2f8ac, [0x61b2]), (0x2f8ad, [0x61a4]), (0x2f8ae, [0x61af]), (0x2f8af, [0x61de]), (0x2f8b0, [0x61f2]), (0x2f8b1, [0x61f6]),
  (0x2f8b2, [0x6210]), (0x2f8b3, [0x621b]), (0x2f8b4, [0x625d]), (0x2f8b5, [0x62b1]), (0x2f8b6, [0x62d4]), (0x2f8b7, [0x6350]), (0x2f8b8, [0x22b0c]),
  (0x2f8b9, [0x633d]), (0x2f8ba, [0x62fc]), (0x2f8bb, [0x6368]), (0x2f8bc, [0x6383]), (0x2f8bd, [0x63e4]), (0x2f8be, [0x22bf1]), (0x2f8bf, [0x6422]),
  (0x2f8c0, [0x63c5]), (0x2f8c1, [0x63a9]), (0x2f8c2, [0x3a2e]), (0x2f8c3, [0x6469]), (0x2f8c4, [0x647e]), (0x2f8c5, [0x649d]), (0x2f8c6, [0x6477]),
  (0x2f8c7, [0x3a6c]), (0x2f8c8, [0x654f]), (0x2f8c9, [0x656c]), (0x2f8ca, [0x2300a]), (0x2f8cb, [0x65e3]), (0x2f8cc, [0x66f8]), (0x2f8cd, [0x6649]),
  (0x2f8ce, [0x3b19]), (0x2f8cf, [0x6691]), (0x2f8d0, [0x3b08]), (0x2f8d1, [0x3ae4]), (0x2f8d2, [0x5192]), (0x2f8d3, [0x5195]), (0x2f8d4, [0x6700]),
  (0x2f8d5, [0x669c]), (0x2f8d6, [0x80ad]), (0x2f8d7, [0x43d9]), (0x2f8d8, [0x6717]), (0x2f8d9, [0x671b]), (0x2f8da, [0x6721]), (0x2f8db, [0x675e]),
  (0x2f8dc, [0x6753]), (0x2f8dd, [0x233c3]), (0x2f8de, [0x3b49]), (0x2f8df, [0x67fa]), (0x2f8e0, [0x6785]), (0x2f8e1, [0x6852]), (0x2f8e2, [0x6885]),
  (0x2f8e3, [0x2346d]), (0x2f8e4, [0x688e]), (0x2f8e5, [0x681f]), (0x2f8e6, [0x6914]), (0x2f8e7, [0x3b9d]), (0x2f8e8, [0x6942]), (0x2f8e9, [0x69a3]),
  (0x2f8ea, [0x69ea]), (0x2f8eb, [0x6aa8]), (0x2f8ec, [0x236a3]), (0x2f8ed, [0x6adb]), (0x2f8ee, [0x3c18]), (0x2f8ef, [0x6b21]),
  (0x2f8f0, [0x238a7]), (0x2f8f1, [0x6b54]), (0x2f8f2, [0x3c4e]), (0x2f8f3, [0x6b72]), (0x2f8f4, [0x6b9f]), (0x2f8f5, [0x6bba]), (0x2f8f6, [0x6bbb]),
  (0x2f8f7, [0x23a8d]), (0x2f8f8, [0x21d0b]), (0x2f8f9, [0x23afa]), (0x2f8fa, [0x6c4e]), (0x2f8fb, [0x23cbc]), (0x2f8fc, [0x6cbf]),
  (0x2f8fd, [0x6ccd]), (0x2f8fe, [0x6c67]), (0x2f8ff, [0x6d16])]

/-- full canonical decompositions, without Hangul syllables, U+2F900 to U+2F9FF -/
def decomposition2f9 : List (Nat × List Nat) := [
  (0x2f900, [0x6d3e]), (0x2f901, [0x6d77]), (0x2f902, [0x6d41]), (0x2f903, [0x6d69]), (0x2f904, [0x6d78]), (0x2f905, [0x6d85]), (0x2f906, [0x23d1e]),
  (0x2f907, [0x6d34]), (0x2f908, [0x6e2f]), (0x2f909, [0x6e6e]), (0x2f90a, [0x3d33]), (0x2f90b, [0x6ecb]), (0x2f90c, [0x6ec7]), (0x2f90d, [0x23ed1]),
  (0x2f90e, [0x6df9]), (0x2f90f, [0x6f6e]), (0x2f910, [0x23f5e]), (0x2f911, [0x23f8e]), (0x2f912, [0x6fc6]), (0x2f913, [0x7039]),
  (0x2f914, [0x701e]), (0x2f915, [0x701b]), (0x2f916, [0x3d96]), (0x2f917, [0x704a]), (0x2f918, [0x707d]), (0x2f919, [0x7077]), (0x2f91a, [0x70ad]),
  (0x2f91b, [0x20525]), (0x2f91c, [0x7145]), (0x2f91d, [0x24263]), (0x2f91e, [0x719c]), (0x2f91f, [0x243ab]), (0x2f920, [0x7228]),
  (0x2f921, [0x7235]), (0x2f922, [0x7250]), (0x2f923, [0x24608]), (0x2f924, [0x7280]), (0x2f925, [0x7295]), (0x2f926, [0x24735]),
  (0x2f927, [0x24814]), (0x2f928, [0x737a]), (0x2f929, [0x738b]), (0x2f92a, [0x3eac]), (0x2f92b, [0x73a5]), (0x2f92c, [0x3eb8]), (0x2f92d, [0x3eb8]),
  (0x2f92e, [0x7447]), (0x2f92f, [0x745c]), (0x2f930, [0x7471]), (0x2f931, [0x7485]), (0x2f932, [0x74ca]), (0x2f933, [0x3f1b]), (0x2f934, [0x7524]),
  (0x2f935, [0x24c36]), (0x2f936, [0x753e]), (0x2f937, [0x24c92]), (0x2f938, [0x7570]), (0x2f939, [0x2219f]), (0x2f93a, [0x7610]),
  (0x2f93b, [0x24fa1]), (0x2f93c, [0x24fb8]), (0x2f93d, [0x25044]), (0x2f93e, [0x3ffc]), (0x2f93f, [0x4008]), (0x2f940, [0x76f4]),
  (0x2f941, [0x250f3]), (0x2f942, [0x250f2]), (0x2f943, [0x25119]), (0x2f944, [0x25133]), (0x2f945, [0x771e]), (0x2f946, [0x771f]),
  (0x2f947, [0x771f]), (0x2f948, [0x774a]), (0x2f949, [0x4039]), (0x2f94a, [0x778b]), (0x2f94b, [0x4046]), (0x2f94c, [0x4096]), (0x2f94d, [0x2541d]),
  (0x2f94e, [0x784e]), (0x2f94f, [0x788c]), (0x2f950, [0x78cc]), (0x2f951, [0x40e3]), (0x2f952, [0x25626]), (0x2f953, [0x7956]),
  (0x2f954, [0x2569a]), (0x2f955, [0x256c5]), (0x2f956, [0x798f]), (0x2f957, [0x79eb]), (0x2f958, [0x412f]), (0x2f959, [0x7a40]),
  (0x2f95a, [0x7a4a]), (0x2f95b, [0x7a4f]), (0x2f95c, [0x2597c]), (0x2f95d, [0x25aa7]), (0x2f95e, [0x25aa7]), (0x2f95f, [0x7aee]),
  (0x2f960, [0x4202]), (0x2f961, [0x25bab]), (0x2f962, [0x7bc6]), (0x2f963, [0x7bc9]), (0x2f964, [0x4227]), (0x2f965, [0x25c80]),
  (0x2f966, [0x7cd2]), (0x2f967, [0x42a0]), (0x2f968, [0x7ce8]), (0x2f969, [0x7ce3]), (0x2f96a, [0x7d00]), (0x2f96b, [0x25f86]), (0x2f96c, [0x7d63]),
  (0x2f96d, [0x4301]), (0x2f96e, [0x7dc7]), (0x2f96f, [0x7e02]), (0x2f970, [0x7e45]), (0x2f971, [0x4334]), (0x2f972, [0x26228]),
  (0x2f973, [0x26247]), (0x2f974, [0x4359]), (0x2f975, [0x262d9]), (0x2f976, [0x7f7a]), (0x2f977, [0x2633e]), (0x2f978, [0x7f95]),
  (0x2f979, [0x7ffa]), (0x2f97a, [0x8005]), (0x2f97b, [0x264da]), (0x2f97c, [0x26523]), (0x2f97d, [0x8060]), (0x2f97e, [0x265a8]),
  (0x2f97f, [0x8070]), (0x2f980, [0x2335f]), (0x2f981, [0x43d5]), (0x2f982, [0x80b2]), (0x2f983, [0x8103]), (0x2f984, [0x440b]), (0x2f985, [0x813e]),
  (0x2f986, [0x5ab5]), (0x2f987, [0x267a7]), (0x2f988, [0x267b5]), (0x2f989, [0x23393]), (0x2f98a, [0x2339c]), (0x2f98b, [0x8201]),
  (0x2f98c, [0x8204]), (0x2f98d, [0x8f9e]), (0x2f98e, [0x446b]), (0x2f98f, [0x8291]), (0x2f990, [0x828b]), (0x2f991, [0x829d]), (0x2f992, [0x52b3]),
  (0x2f993, [0x82b1]), (0x2f994, [0x82b3]), (0x2f995, [0x82bd]), (0x2f996, [0x82e6]), (0x2f997, [0x26b3c]), (0x2f998, [0x82e5]), (0x2f999, [0x831d]),
  (0x2f99a, [0x8363]), (0x2f99b, [0x83ad]), (0x2f99c, [0x8323]), (0x2f99d, [0x83bd]), (0x2f99e, [0x83e7]), (0x2f99f, [0x8457]), (0x2f9a0, [0x8353]),
  (0x2f9a1, [0x83ca]), (0x2f9a2, [0x83cc]), (0x2f9a3, [0x83dc]), (0x2f9a4, [0x26c36]), (0x2f9a5, [0x26d6b]), (0x2f9a6, [0x26cd5]),
  (0x2f9a7, [0x452b]), (0x2f9a8, [0x84f1]), (0x2f9a9, [0x84f3]), (0x2f9aa, [0x8516]), (0x2f9ab, [0x273ca]), (0x2f9ac, [0x8564]),
  (0x2f9ad, [0x26f2c]), (0x2f9ae, [0x455d]), (0x2f9af, [0x4561]), (0x2f9b0, [0x26fb1]), (0x2f9b1, [0x270d2]), (0x2f9b2, [0x456b]),
  (0x2f9b3, [0x8650]), (0x2f9b4, [0x865c]), (0x2f9b5, [0x8667]), (0x2f9b6, [0x8669]), (0x2f9b7, [0x86a9]), (0x2f9b8, [0x8688]), (0x2f9b9, [0x870e]),
  (0x2f9ba, [0x86e2]), (0x2f9bb, [0x8779]), (0x2f9bc, [0x8728]), (0x2f9bd, [0x876b]), (0x2f9be, [0x8786]), (0x2f9bf, [0x45d7]), (0x2f9c0, [0x87e1]),
  (0x2f9c1, [0x8801]), (0x2f9c2, [0x45f9]), (0x2f9c3, [0x8860]), (0x2f9c4, [0x8863]), (0x2f9c5, [0x27667]), (0x2f9c6, [0x88d7]), (0x2f9c7, [0x88de]),
  (0x2f9c8, [0x4635]), (0x2f9c9, [0x88fa]), (0x2f9ca, [0x34bb]), (0x2f9cb, [0x278ae]), (0x2f9cc, [0x27966]), (0x2f9cd, [0x46be]),
  (0x2f9ce, [0x46c7]), (0x2f9cf, [0x8aa0]), (0x2f9d0, [0x8aed]), (0x2f9d1, [0x8b8a]), (0x2f9d2, [0x8c55]), (0x2f9d3, [0x27ca8]), (0x2f9d4, [0x8cab]),
  (0x2f9d5, [0x8cc1]), (0x2f9d6, [0x8d1b]), (0x2f9d7, [0x8d77]), (0x2f9d8, [0x27f2f]), (0x2f9d9, [0x20804]), (0x2f9da, [0x8dcb]),
  (0x2f9db, [0x8dbc]), (0x2f9dc, [0x8df0]), (0x2f9dd, [0x208de]), (0x2f9de, [0x8ed4]), (0x2f9df, [0x8f38]), (0x2f9e0, [0x285d2]),
  (0x2f9e1, [0x285ed]), (0x2f9e2, [0x9094]), (0x2f9e3, [0x90f1]), (0x2f9e4, [0x9111]), (0x2f9e5, [0x2872e]), (0x2f9e6, [0x911b]),
  (0x2f9e7, [0x9238]), (0x2f9e8, [0x92d7]), (0x2f9e9, [0x92d8]), (0x2f9ea, [0x927c]), (0x2f9eb, [0x93f9]), (0x2f9ec, [0x9415]), (0x2f9ed, [0x28bfa]),
  (0x2f9ee, [0x958b]), (0x2f9ef, [0x4995]), (0x2f9f0, [0x95b7]), (0x2f9f1, [0x28d77]), (0x2f9f2, [0x49e6]), (0x2f9f3, [0x96c3]), (0x2f9f4, [0x5db2]),
  (0x2f9f5, [0x9723]), (0x2f9f6, [0x29145]), (0x2f9f7, [0x2921a]), (0x2f9f8, [0x4a6e]), (0x2f9f9, [0x4a76]), (0x2f9fa, [0x97e0]),
  (0x2f9fb, [0x2940a]), (0x2f9fc, [0x4ab2]), (0x2f9fd, [0x29496]), (0x2f9fe, [0x980b]), (0x2f9ff, [0x980b])]

/-- full canonical decompositions, without Hangul syllables, U+2FA00 to U+2FAFF -/
def decomposition2fa : List (Nat × List Nat) := [
  (0x2fa00, [0x9829]), (0x2fa01, [0x295b6]), (0x2fa02, [0x98e2]), (0x2fa03, [0x4b33]), (0x2fa04, [0x9929]), (0x2fa05, [0x99a7]), (0x2fa06, [0x99c2]),
  (0x2fa07, [0x99fe]), (0x2fa08, [0x4bce]), (0x2fa09, [0x29b30]), (0x2fa0a, [0x9b12]), (0x2fa0b, [0x9c40]), (0x2fa0c, [0x9cfd]), (0x2fa0d, [0x4cce]),
  (0x2fa0e, [0x4ced]), (0x2fa0f, [0x9d67]), (0x2fa10, [0x2a0ce]), (0x2fa11, [0x4cf8]), (0x2fa12, [0x2a105]), (0x2fa13, [0x2a20e]),
  (0x2fa14, [0x2a291]), (0x2fa15, [0x9ebb]), (0x2fa16, [0x4d56]), (0x2fa17, [0x9ef9]), (0x2fa18, [0x9efe]), (0x2fa19, [0x9f05]), (0x2fa1a, [0x9f0f]),
  (0x2fa1b, [0x9f16]), (0x2fa1c, [0x9f3b]), (0x2fa1d, [0x2a600])]

/-- full canonical decompositions, without Hangul syllables -/
def decompositionPages : List (Nat × List (Nat × List Nat)) := [
  (0x0, decomposition0), (0x1, decomposition1), (0x2, decomposition2), (0x3, decomposition3), (0x4, decomposition4), (0x6, decomposition6),
  (0x9, decomposition9), (0xa, decompositiona), (0xb, decompositionb), (0xc, decompositionc), (0xd, decompositiond), (0xf, decompositionf),
  (0x10, decomposition10), (0x1b, decomposition1b), (0x1e, decomposition1e), (0x1f, decomposition1f), (0x20, decomposition20),
  (0x21, decomposition21), (0x22, decomposition22), (0x23, decomposition23), (0x2a, decomposition2a), (0x30, decomposition30),
  (0xf9, decompositionf9), (0xfa, decompositionfa), (0xfb, decompositionfb), (0x110, decomposition110), (0x111, decomposition111),
  (0x113, decomposition113), (0x114, decomposition114), (0x115, decomposition115), (0x119, decomposition119), (0x1d1, decomposition1d1),
  (0x2f8, decomposition2f8), (0x2f9, decomposition2f9), (0x2fa, decomposition2fa)]

/-- full case foldings, U+0 to U+FF -/
def caseFolding0 : List (Nat × List Nat) := [
  (0x41, [0x61]), (0x42, [0x62]), (0x43, [0x63]), (0x44, [0x64]), (0x45, [0x65]), (0x46, [0x66]), (0x47, [0x67]), (0x48, [0x68]), (0x49, [0x69]),
  (0x4a, [0x6a]), (0x4b, [0x6b]), (0x4c, [0x6c]), (0x4d, [0x6d]), (0x4e, [0x6e]), (0x4f, [0x6f]), (0x50, [0x70]), (0x51, [0x71]), (0x52, [0x72]),
  (0x53, [0x73]), (0x54, [0x74]), (0x55, [0x75]), (0x56, [0x76]), (0x57, [0x77]), (0x58, [0x78]), (0x59, [0x79]), (0x5a, [0x7a]), (0xb5, [0x3bc]),
  (0xc0, [0xe0]), (0xc1, [0xe1]), (0xc2, [0xe2]), (0xc3, [0xe3]), (0xc4, [0xe4]), (0xc5, [0xe5]), (0xc6, [0xe6]), (0xc7, [0xe7]), (0xc8, [0xe8]),
  (0xc9, [0xe9]), (0xca, [0xea]), (0xcb, [0xeb]), (0xcc, [0xec]), (0xcd, [0xed]), (0xce, [0xee]), (0xcf, [0xef]), (0xd0, [0xf0]), (0xd1, [0xf1]),
  (0xd2, [0xf2]), (0xd3, [0xf3]), (0xd4, [0xf4]), (0xd5, [0xf5]), (0xd6, [0xf6]), (0xd8, [0xf8]), (0xd9, [0xf9]), (0xda, [0xfa]), (0xdb, [0xfb]),
  (0xdc, [0xfc]), (0xdd, [0xfd]), (0xde, [0xfe]), (0xdf, [0x73, 0x73])]

/-- full case foldings, U+100 to U+1FF -/
def caseFolding1 : List (Nat × List Nat) := [
  (0x100, [0x101]), (0x102, [0x103]), (0x104, [0x105]), (0x106, [0x107]), (0x108, [0x109]), (0x10a, [0x10b]), (0x10c, [0x10d]), (0x10e, [0x10f]),
  (0x110, [0x111]), (0x112, [0x113]), (0x114, [0x115]), (0x116, [0x117]), (0x118, [0x119]), (0x11a, [0x11b]), (0x11c, [0x11d]), (0x11e, [0x11f]),
  (0x120, [0x121]), (0x122, [0x123]), (0x124, [0x125]), (0x126, [0x127]), (0x128, [0x129]), (0x12a, [0x12b]), (0x12c, [0x12d]), (0x12e, [0x12f]),
  (0x130, [0x69, 0x307]), (0x132, [0x133]), (0x134, [0x135]), (0x136, [0x137]), (0x139, [0x13a]), (0x13b, [0x13c]), (0x13d, [0x13e]),
  (0x13f, [0x140]), (0x141, [0x142]), (0x143, [0x144]), (0x145, [0x146]), (0x147, [0x148]), (0x149, [0x2bc, 0x6e]), (0x14a, [0x14b]),
  (0x14c, [0x14d]), (0x14e, [0x14f]), (0x150, [0x151]), (0x152, [0x153]), (0x154, [0x155]), (0x156, [0x157]), (0x158, [0x159]), (0x15a, [0x15b]),
  (0x15c, [0x15d]), (0x15e, [0x15f]), (0x160, [0x161]), (0x162, [0x163]), (0x164, [0x165]), (0x166, [0x167]), (0x168, [0x169]), (0x16a, [0x16b]),
  (0x16c, [0x16d]), (0x16e, [0x16f]), (0x170, [0x171]), (0x172, [0x173]), (0x174, [0x175]), (0x176, [0x177]), (0x178, [0xff]), (0x179, [0x17a]),
  (0x17b, [0x17c]), (0x17d, [0x17e]), (0x17f, [0x73]), (0x181, [0x253]), (0x182, [0x183]), (0x184, [0x185]), (0x186, [0x254]), (0x187, [0x188]),
  (0x189, [0x256]), (0x18a, [0x257]), (0x18b, [0x18c]), (0x18e, [0x1dd]), (0x18f, [0x259]), (0x190, [0x25b]), (0x191, [0x192]), (0x193, [0x260]),
  (0x194, [0x263]), (0x196, [0x269]), (0x197, [0x268]), (0x198, [0x199]), (0x19c, [0x26f]), (0x19d, [0x272]), (0x19f, [0x275]), (0x1a0, [0x1a1]),
  (0x1a2, [0x1a3]), (0x1a4, [0x1a5]), (0x1a6, [0x280]), (0x1a7, [0x1a8]), (0x1a9, [0x283]), (0x1ac, [0x1ad]), (0x1ae, [0x288]), (0x1af, [0x1b0]),
  (0x1b1, [0x28a]), (0x1b2, [0x28b]), (0x1b3, [0x1b4]), (0x1b5, [0x1b6]), (0x1b7, [0x292]), (0x1b8, [0x1b9]), (0x1bc, [0x1bd]), (0x1c4, [0x1c6]),
  (0x1c5, [0x1c6]), (0x1c7, [0x1c9]), (0x1c8, [0x1c9]), (0x1ca, [0x1cc]), (0x1cb, [0x1cc]), (0x1cd, [0x1ce]), (0x1cf, [0x1d0]), (0x1d1, [0x1d2]),
  (0x1d3, [0x1d4]), (0x1d5, [0x1d6]), (0x1d7, [0x1d8]), (0x1d9, [0x1da]), (0x1db, [0x1dc]), (0x1de, [0x1df]), (0x1e0, [0x1e1]), (0x1e2, [0x1e3]),
  (0x1e4, [0x1e5]), (0x1e6, [0x1e7]), (0x1e8, [0x1e9]), (0x1ea, [0x1eb]), (0x1ec, [0x1ed]), (0x1ee, [0x1ef]), (0x1f0, [0x6a, 0x30c]),
  (0x1f1, [0x1f3]), (0x1f2, [0x1f3]), (0x1f4, [0x1f5]), (0x1f6, [0x195]), (0x1f7, [0x1bf]), (0x1f8, [0x1f9]), (0x1fa, [0x1fb]), (0x1fc, [0x1fd]),
  (0x1fe, [0x1ff])]

/-- full case foldings, U+200 to U+2FF -/
def caseFolding2 : List (Nat × List Nat) := [
  (0x200, [0x201]), (0x202, [0x203]), (0x204, [0x205]), (0x206, [0x207]), (0x208, [0x209]), (0x20a, [0x20b]), (0x20c, [0x20d]), (0x20e, [0x20f]),
  (0x210, [0x211]), (0x212, [0x213]), (0x214, [0x215]), (0x216, [0x217]), (0x218, [0x219]), (0x21a, [0x21b]), (0x21c, [0x21d]), (0x21e, [0x21f]),
  (0x220, [0x19e]), (0x222, [0x223]), (0x224, [0x225]), (0x226, [0x227]), (0x228, [0x229]), (0x22a, [0x22b]), (0x22c, [0x22d]), (0x22e, [0x22f]),
  (0x230, [0x231]), (0x232, [0x233]), (0x23a, [0x2c65]), (0x23b, [0x23c]), (0x23d, [0x19a]), (0x23e, [0x2c66]), (0x241, [0x242]), (0x243, [0x180]),
  (0x244, [0x289]), (0x245, [0x28c]), (0x246, [0x247]), (0x248, [0x249]), (0x24a, [0x24b]), (0x24c, [0x24d]), (0x24e, [0x24f])]

/-- full case foldings, U+300 to U+3FF -/
def caseFolding3 : List (Nat × List Nat) := [
  (0x345, [0x3b9]), (0x370, [0x371]), (0x372, [0x373]), (0x376, [0x377]), (0x37f, [0x3f3]), (0x386, [0x3ac]), (0x388, [0x3ad]), (0x389, [0x3ae]),
  (0x38a, [0x3af]), (0x38c, [0x3cc]), (0x38e, [0x3cd]), (0x38f, [0x3ce]), (0x390, [0x3b9, 0x308, 0x301]), (0x391, [0x3b1]), (0x392, [0x3b2]),
  (0x393, [0x3b3]), (0x394, [0x3b4]), (0x395, [0x3b5]), (0x396, [0x3b6]), (0x397, [0x3b7]), (0x398, [0x3b8]), (0x399, [0x3b9]), (0x39a, [0x3ba]),
  (0x39b, [0x3bb]), (0x39c, [0x3bc]), (0x39d, [0x3bd]), (0x39e, [0x3be]), (0x39f, [0x3bf]), (0x3a0, [0x3c0]), (0x3a1, [0x3c1]), (0x3a3, [0x3c3]),
  (0x3a4, [0x3c4]), (0x3a5, [0x3c5]), (0x3a6, [0x3c6]), (0x3a7, [0x3c7]), (0x3a8, [0x3c8]), (0x3a9, [0x3c9]), (0x3aa, [0x3ca]), (0x3ab, [0x3cb]),
  (0x3b0, [0x3c5, 0x308, 0x301]), (0x3c2, [0x3c3]), (0x3cf, [0x3d7]), (0x3d0, [0x3b2]), (0x3d1, [0x3b8]), (0x3d5, [0x3c6]), (0x3d6, [0x3c0]),
  (0x3d8, [0x3d9]), (0x3da, [0x3db]), (0x3dc, [0x3dd]), (0x3de, [0x3df]), (0x3e0, [0x3e1]), (0x3e2, [0x3e3]), (0x3e4, [0x3e5]), (0x3e6, [0x3e7]),
  (0x3e8, [0x3e9]), (0x3ea, [0x3eb]), (0x3ec, [0x3ed]), (0x3ee, [0x3ef]), (0x3f0, [0x3ba]), (0x3f1, [0x3c1]), (0x3f4, [0x3b8]), (0x3f5, [0x3b5]),
  (0x3f7, [0x3f8]), (0x3f9, [0x3f2]), (0x3fa, [0x3fb]), (0x3fd, [0x37b]), (0x3fe, [0x37c]), (0x3ff, [0x37d])]

/-- full case foldings, U+400 to U+4FF -/
def caseFolding4 : List (Nat × List Nat) := [
  (0x400, [0x450]), (0x401, [0x451]), (0x402, [0x452]), (0x403, [0x453]), (0x404, [0x454]), (0x405, [0x455]), (0x406, [0x456]), (0x407, [0x457]),
  (0x408, [0x458]), (0x409, [0x459]), (0x40a, [0x45a]), (0x40b, [0x45b]), (0x40c, [0x45c]), (0x40d, [0x45d]), (0x40e, [0x45e]), (0x40f, [0x45f]),
  (0x410, [0x430]), (0x411, [0x431]), (0x412, [0x432]), (0x413, [0x433]), (0x414, [0x434]), (0x415, [0x435]), (0x416, [0x436]), (0x417, [0x437]),
  (0x418, [0x438]), (0x419, [0x439]), (0x41a, [0x43a]), (0x41b, [0x43b]), (0x41c, [0x43c]), (0x41d, [0x43d]), (0x41e, [0x43e]), (0x41f, [0x43f]),
  (0x420, [0x440]), (0x421, [0x441]), (0x422, [0x442]), (0x423, [0x443]), (0x424, [0x444]), (0x425, [0x445]), (0x426, [0x446]), (0x427, [0x447]),
  (0x428, [0x448]), (0x429, [0x449]), (0x42a, [0x44a]), (0x42b, [0x44b]), (0x42c, [0x44c]), (0x42d, [0x44d]), (0x42e, [0x44e]), (0x42f, [0x44f]),
  (0x460, [0x461]), (0x462, [0x463]), (0x464, [0x465]), (0x466, [0x467]), (0x468, [0x469]), (0x46a, [0x46b]), (0x46c, [0x46d]), (0x46e, [0x46f]),
  (0x470, [0x471]), (0x472, [0x473]), (0x474, [0x475]), (0x476, [0x477]), (0x478, [0x479]), (0x47a, [0x47b]), (0x47c, [0x47d]), (0x47e, [0x47f]),
  (0x480, [0x481]), (0x48a, [0x48b]), (0x48c, [0x48d]), (0x48e, [0x48f]), (0x490, [0x491]), (0x492, [0x493]), (0x494, [0x495]), (0x496, [0x497]),
  (0x498, [0x499]), (0x49a, [0x49b]), (0x49c, [0x49d]), (0x49e, [0x49f]), (0x4a0, [0x4a1]), (0x4a2, [0x4a3]), (0x4a4, [0x4a5]), (0x4a6, [0x4a7]),
  (0x4a8, [0x4a9]), (0x4aa, [0x4ab]), (0x4ac, [0x4ad]), (0x4ae, [0x4af]), (0x4b0, [0x4b1]), (0x4b2, [0x4b3]), (0x4b4, [0x4b5]), (0x4b6, [0x4b7]),
  (0x4b8, [0x4b9]), (0x4ba, [0x4bb]), (0x4bc, [0x4bd]), (0x4be, [0x4bf]), (0x4c0, [0x4cf]), (0x4c1, [0x4c2]), (0x4c3, [0x4c4]), (0x4c5, [0x4c6]),
  (0x4c7, [0x4c8]), (0x4c9, [0x4ca]), (0x4cb, [0x4cc]), (0x4cd, [0x4ce]), (0x4d0, [0x4d1]), (0x4d2, [0x4d3]), (0x4d4, [0x4d5]), (0x4d6, [0x4d7]),
  (0x4d8, [0x4d9]), (0x4da, [0x4db]), (0x4dc, [0x4dd]), (0x4de, [0x4df]), (0x4e0, [0x4e1]), (0x4e2, [0x4e3]), (0x4e4, [0x4e5]), (0x4e6, [0x4e7]),
  (0x4e8, [0x4e9]), (0x4ea, [0x4eb]), (0x4ec, [0x4ed]), (0x4ee, [0x4ef]), (0x4f0, [0x4f1]), (0x4f2, [0x4f3]), (0x4f4, [0x4f5]), (0x4f6, [0x4f7]),
  (0x4f8, [0x4f9]), (0x4fa, [0x4fb]), (0x4fc, [0x4fd]), (0x4fe, [0x4ff])]

/-- full case foldings, U+500 to U+5FF -/
def caseFolding5 : List (Nat × List Nat) := [
  (0x500, [0x501]), (0x502, [0x503]), (0x504, [0x505]), (0x506, [0x507]), (0x508, [0x509]), (0x50a, [0x50b]), (0x50c, [0x50d]), (0x50e, [0x50f]),
  (0x510, [0x511]), (0x512, [0x513]), (0x514, [0x515]), (0x516, [0x517]), (0x518, [0x519]), (0x51a, [0x51b]), (0x51c, [0x51d]), (0x51e, [0x51f]),
  (0x520, [0x521]), (0x522, [0x523]), (0x524, [0x525]), (0x526, [0x527]), (0x528, [0x529]), (0x52a, [0x52b]), (0x52c, [0x52d]), (0x52e, [0x52f]),
  (0x531, [0x561]), (0x532, [0x562]), (0x533, [0x563]), (0x534, [0x564]), (0x535, [0x565]), (0x536, [0x566]), (0x537, [0x567]), (0x538, [0x568]),
  (0x539, [0x569]), (0x53a, [0x56a]), (0x53b, [0x56b]), (0x53c, [0x56c]), (0x53d, [0x56d]), (0x53e, [0x56e]), (0x53f, [0x56f]), (0x540, [0x570]),
  (0x541, [0x571]), (0x542, [0x572]), (0x543, [0x573]), (0x544, [0x574]), (0x545, [0x575]), (0x546, [0x576]), (0x547, [0x577]), (0x548, [0x578]),
  (0x549, [0x579]), (0x54a, [0x57a]), (0x54b, [0x57b]), (0x54c, [0x57c]), (0x54d, [0x57d]), (0x54e, [0x57e]), (0x54f, [0x57f]), (0x550, [0x580]),
  (0x551, [0x581]), (0x552, [0x582]), (0x553, [0x583]), (0x554, [0x584]), (0x555, [0x585]), (0x556, [0x586]), (0x587, [0x565, 0x582])]

/-- full case foldings, U+1000 to U+10FF -/
def caseFolding10 : List (Nat × List Nat) := [
  (0x10a0, [0x2d00]), (0x10a1, [0x2d01]), (0x10a2, [0x2d02]), (0x10a3, [0x2d03]), (0x10a4, [0x2d04]), (0x10a5, [0x2d05]), (0x10a6, [0x2d06]),
  (0x10a7, [0x2d07]), (0x10a8, [0x2d08]), (0x10a9, [0x2d09]), (0x10aa, [0x2d0a]), (0x10ab, [0x2d0b]), (0x10ac, [0x2d0c]), (0x10ad, [0x2d0d]),
  (0x10ae, [0x2d0e]), (0x10af, [0x2d0f]), (0x10b0, [0x2d10]), (0x10b1, [0x2d11]), (0x10b2, [0x2d12]), (0x10b3, [0x2d13]), (0x10b4, [0x2d14]),
  (0x10b5, [0x2d15]), (0x10b6, [0x2d16]), (0x10b7, [0x2d17]), (0x10b8, [0x2d18]), (0x10b9, [0x2d19]), (0x10ba, [0x2d1a]), (0x10bb, [0x2d1b]),
  (0x10bc, [0x2d1c]), (0x10bd, [0x2d1d]), (0x10be, [0x2d1e]), (0x10bf, [0x2d1f]), (0x10c0, [0x2d20]), (0x10c1, [0x2d21]), (0x10c2, [0x2d22]),
  (0x10c3, [0x2d23]), (0x10c4, [0x2d24]), (0x10c5, [0x2d25]), (0x10c7, [0x2d27]), (0x10cd, [0x2d2d])]

/-- full case foldings, U+1300 to U+13FF -/
def caseFolding13 : List (Nat × List Nat) := [
  (0x13f8, [0x13f0]), (0x13f9, [0x13f1]), (0x13fa, [0x13f2]), (0x13fb, [0x13f3]), (0x13fc, [0x13f4]), (0x13fd, [0x13f5])]

/-- full case foldings, U+1C00 to U+1CFF -/
def caseFolding1c : List (Nat × List Nat) := [
  (0x1c80, [0x432]), (0x1c81, [0x434]), (0x1c82, [0x43e]), (0x1c83, [0x441]), (0x1c84, [0x442]), (0x1c85, [0x442]), (0x1c86, [0x44a]),
  (0x1c87, [0x463]), (0x1c88, [0xa64b]), (0x1c90, [0x10d0]), (0x1c91, [0x10d1]), (0x1c92, [0x10d2]), (0x1c93, [0x10d3]), (0x1c94, [0x10d4]),
  (0x1c95, [0x10d5]), (0x1c96, [0x10d6]), (0x1c97, [0x10d7]), (0x1c98, [0x10d8]), (0x1c99, [0x10d9]), (0x1c9a, [0x10da]), (0x1c9b, [0x10db]),
  (0x1c9c, [0x10dc]), (0x1c9d, [0x10dd]), (0x1c9e, [0x10de]), (0x1c9f, [0x10df]), (0x1ca0, [0x10e0]), (0x1ca1, [0x10e1]), (0x1ca2, [0x10e2]),
  (0x1ca3, [0x10e3]), (0x1ca4, [0x10e4]), (0x1ca5, [0x10e5]), (0x1ca6, [0x10e6]), (0x1ca7, [0x10e7]), (0x1ca8, [0x10e8]), (0x1ca9, [0x10e9]),
  (0x1caa, [0x10ea]), (0x1cab, [0x10eb]), (0x1cac, [0x10ec]), (0x1cad, [0x10ed]), (0x1cae, [0x10ee]), (0x1caf, [0x10ef]), (0x1cb0, [0x10f0]),
  (0x1cb1, [0x10f1]), (0x1cb2, [0x10f2]), (0x1cb3, [0x10f3]), (0x1cb4, [0x10f4]), (0x1cb5, [0x10f5]), (0x1cb6, [0x10f6]), (0x1cb7, [0x10f7]),
  (0x1cb8, [0x10f8]), (0x1cb9, [0x10f9]), (0x1cba, [0x10fa]), (0x1cbd, [0x10fd]), (0x1cbe, [0x10fe]), (0x1cbf, [0x10ff])]

/-- full case foldings, U+1E00 to U+1EFF -/
def caseFolding1e : List (Nat × List Nat) := [
  (0x1e00, [0x1e01]), (0x1e02, [0x1e03]), (0x1e04, [0x1e05]), (0x1e06, [0x1e07]), (0x1e08, [0x1e09]), (0x1e0a, [0x1e0b]), (0x1e0c, [0x1e0d]),
  (0x1e0e, [0x1e0f]), (0x1e10, [0x1e11]), (0x1e12, [0x1e13]), (0x1e14, [0x1e15]), (0x1e16, [0x1e17]), (0x1e18, [0x1e19]), (0x1e1a, [0x1e1b]),
  (0x1e1c, [0x1e1d]), (0x1e1e, [0x1e1f]), (0x1e20, [0x1e21]), (0x1e22, [0x1e23]), (0x1e24, [0x1e25]), (0x1e26, [0x1e27]), (0x1e28, [0x1e29]),
  (0x1e2a, [0x1e2b]), (0x1e2c, [0x1e2d]), (0x1e2e, [0x1e2f]), (0x1e30, [0x1e31]), (0x1e32, [0x1e33]), (0x1e34, [0x1e35]), (0x1e36, [0x1e37]),
  (0x1e38, [0x1e39]), (0x1e3a, [0x1e3b]), (0x1e3c, [0x1e3d]), (0x1e3e, [0x1e3f]), (0x1e40, [0x1e41]), (0x1e42, [0x1e43]), (0x1e44, [0x1e45]),
  (0x1e46, [0x1e47]), (0x1e48, [0x1e49]), (0x1e4a, [0x1e4b]), (0x1e4c, [0x1e4d]), (0x1e4e, [0x1e4f]), (0x1e50, [0x1e51]), (0x1e52, [0x1e53]),
  (0x1e54, [0x1e55]), (0x1e56, [0x1e57]), (0x1e58, [0x1e59]), (0x1e5a, [0x1e5b]), (0x1e5c, [0x1e5d]), (0x1e5e, [0x1e5f]), (0x1e60, [0x1e61]),
  (0x1e62, [0x1e63]), (0x1e64, [0x1e65]), (0x1e66, [0x1e67]), (0x1e68, [0x1e69]), (0x1e6a, [0x1e6b]), (0x1e6c, [0x1e6d]), (0x1e6e, [0x1e6f]),
  (0x1e70, [0x1e71]), (0x1e72, [0x1e73]), (0x1e74, [0x1e75]), (0x1e76, [0x1e77]), (0x1e78, [0x1e79]), (0x1e7a, [0x1e7b]), (0x1e7c, [0x1e7d]),
  (0x1e7e, [0x1e7f]), (0x1e80, [0x1e81]), (0x1e82, [0x1e83]), (0x1e84, [0x1e85]), (0x1e86, [0x1e87]), (0x1e88, [0x1e89]), (0x1e8a, [0x1e8b]),
  (0x1e8c, [0x1e8d]), (0x1e8e, [0x1e8f]), (0x1e90, [0x1e91]), (0x1e92, [0x1e93]), (0x1e94, [0x1e95]), (0x1e96, [0x68, 0x331]),
  (0x1e97, [0x74, 0x308]), (0x1e98, [0x77, 0x30a]), (0x1e99, [0x79, 0x30a]), (0x1e9a, [0x61, 0x2be]), (0x1e9b, [0x1e61]), (0x1e9e, [0x73, 0x73]),
  (0x1ea0, [0x1ea1]), (0x1ea2, [0x1ea3]), (0x1ea4, [0x1ea5]), (0x1ea6, [0x1ea7]), (0x1ea8, [0x1ea9]), (0x1eaa, [0x1eab]), (0x1eac, [0x1ead]),
  (0x1eae, [0x1eaf]), (0x1eb0, [0x1eb1]), (0x1eb2, [0x1eb3]), (0x1eb4, [0x1eb5]), (0x1eb6, [0x1eb7]), (0x1eb8, [0x1eb9]), (0x1eba, [0x1ebb]),
  (0x1ebc, [0x1ebd]), (0x1ebe, [0x1ebf]), (0x1ec0, [0x1ec1]), (0x1ec2, [0x1ec3]), (0x1ec4, [0x1ec5]), (0x1ec6, [0x1ec7]), (0x1ec8, [0x1ec9]),
  (0x1eca, [0x1ecb]), (0x1ecc, [0x1ecd]), (0x1ece, [0x1ecf]), (0x1ed0, [0x1ed1]), (0x1ed2, [0x1ed3]), (0x1ed4, [0x1ed5]), (0x1ed6, [0x1ed7]),
  (0x1ed8, [0x1ed9]), (0x1eda, [0x1edb]), (0x1edc, [0x1edd]), (0x1ede, [0x1edf]), (0x1ee0, [0x1ee1]), (0x1ee2, [0x1ee3]), (0x1ee4, [0x1ee5]),
  (0x1ee6, [0x1ee7]), (0x1ee8, [0x1ee9]), (0x1eea, [0x1eeb]), (0x1eec, [0x1eed]), (0x1eee, [0x1eef]), (0x1ef0, [0x1ef1]), (0x1ef2, [0x1ef3]),
  (0x1ef4, [0x1ef5]), (0x1ef6, [0x1ef7]), (0x1ef8, [0x1ef9]), (0x1efa, [0x1efb]), (0x1efc, [0x1efd]), (0x1efe, [0x1eff])]

/-- full case foldings, U+1F00 to U+1FFF -/
def caseFolding1f : List (Nat × List Nat) := [
  (0x1f08, [0x1f00]), (0x1f09, [0x1f01]), (0x1f0a, [0x1f02]), (0x1f0b, [0x1f03]), (0x1f0c, [0x1f04]), (0x1f0d, [0x1f05]), (0x1f0e, [0x1f06]),
  (0x1f0f, [0x1f07]), (0x1f18, [0x1f10]), (0x1f19, [0x1f11]), (0x1f1a, [0x1f12]), (0x1f1b, [0x1f13]), (0x1f1c, [0x1f14]), (0x1f1d, [0x1f15]),
  (0x1f28, [0x1f20]), (0x1f29, [0x1f21]), (0x1f2a, [0x1f22]), (0x1f2b, [0x1f23]), (0x1f2c, [0x1f24]), (0x1f2d, [0x1f25]), (0x1f2e, [0x1f26]),
  (0x1f2f, [0x1f27]), (0x1f38, [0x1f30]), (0x1f39, [0x1f31]), (0x1f3a, [0x1f32]), (0x1f3b, [0x1f33]), (0x1f3c, [0x1f34]), (0x1f3d, [0x1f35]),
  (0x1f3e, [0x1f36]), (0x1f3f, [0x1f37]), (0x1f48, [0x1f40]), (0x1f49, [0x1f41]), (0x1f4a, [0x1f42]), (0x1f4b, [0x1f43]), (0x1f4c, [0x1f44]),
  (0x1f4d, [0x1f45]), (0x1f50, [0x3c5, 0x313]), (0x1f52, [0x3c5, 0x313, 0x300]), (0x1f54, [0x3c5, 0x313, 0x301]), (0x1f56, [0x3c5, 0x313, 0x342]),
  (0x1f59, [0x1f51]), (0x1f5b, [0x1f53]), (0x1f5d, [0x1f55]), (0x1f5f, [0x1f57]), (0x1f68, [0x1f60]), (0x1f69, [0x1f61]), (0x1f6a, [0x1f62]),
  (0x1f6b, [0x1f63]), (0x1f6c, [0x1f64]), (0x1f6d, [0x1f65]), (0x1f6e, [0x1f66]), (0x1f6f, [0x1f67]), (0x1f80, [0x1f00, 0x3b9]),
  (0x1f81, [0x1f01, 0x3b9]), (0x1f82, [0x1f02, 0x3b9]), (0x1f83, [0x1f03, 0x3b9]), (0x1f84, [0x1f04, 0x3b9]), (0x1f85, [0x1f05, 0x3b9]),
  (0x1f86, [0x1f06, 0x3b9]), (0x1f87, [0x1f07, 0x3b9]), (0x1f88, [0x1f00, 0x3b9]), (0x1f89, [0x1f01, 0x3b9]), (0x1f8a, [0x1f02, 0x3b9]),
  (0x1f8b, [0x1f03, 0x3b9]), (0x1f8c, [0x1f04, 0x3b9]), (0x1f8d, [0x1f05, 0x3b9]), (0x1f8e, [0x1f06, 0x3b9]), (0x1f8f, [0x1f07, 0x3b9]),
  (0x1f90, [0x1f20, 0x3b9]), (0x1f91, [0x1f21, 0x3b9]), (0x1f92, [0x1f22, 0x3b9]), (0x1f93, [0x1f23, 0x3b9]), (0x1f94, [0x1f24, 0x3b9]),
  (0x1f95, [0x1f25, 0x3b9]), (0x1f96, [0x1f26, 0x3b9]), (0x1f97, [0x1f27, 0x3b9]), (0x1f98, [0x1f20, 0x3b9]), (0x1f99, [0x1f21, 0x3b9]),
  (0x1f9a, [0x1f22, 0x3b9]), (0x1f9b, [0x1f23, 0x3b9]), (0x1f9c, [0x1f24, 0x3b9]), (0x1f9d, [0x1f25, 0x3b9]), (0x1f9e, [0x1f26, 0x3b9]),
  (0x1f9f, [0x1f27, 0x3b9]), (0x1fa0, [0x1f60, 0x3b9]), (0x1fa1, [0x1f61, 0x3b9]), (0x1fa2, [0x1f62, 0x3b9]), (0x1fa3, [0x1f63, 0x3b9]),
  (0x1fa4, [0x1f64, 0x3b9]), (0x1fa5, [0x1f65, 0x3b9]), (0x1fa6, [0x1f66, 0x3b9]), (0x1fa7, [0x1f67, 0x3b9]), (0x1fa8, [0x1f60, 0x3b9]),
  (0x1fa9, [0x1f61, 0x3b9]), (0x1faa, [0x1f62, 0x3b9]), (0x1fab, [0x1f63, 0x3b9]), (0x1fac, [0x1f64, 0x3b9]), (0x1fad, [0x1f65, 0x3b9]),
  (0x1fae, [0x1f66, 0x3b9]), (0x1faf, [0x1f67, 0x3b9]), (0x1fb2, [0x1f70, 0x3b9]), (0x1fb3, [0x3b1, 0x3b9]), (0x1fb4, [0x3ac, 0x3b9]),
  (0x1fb6, [0x3b1, 0x342]), (0x1fb7, [0x3b1, 0x342, 0x3b9]), (0x1fb8, [0x1fb0]), (0x1fb9, [0x1fb1]), (0x1fba, [0x1f70]), (0x1fbb, [0x1f71]),
  (0x1fbc, [0x3b1, 0x3b9]), (0x1fbe, [0x3b9]), (0x1fc2, [0x1f74, 0x3b9]), (0x1fc3, [0x3b7, 0x3b9]), (0x1fc4, [0x3ae, 0x3b9]),
  (0x1fc6, [0x3b7, 0x342]), (0x1fc7, [0x3b7, 0x342, 0x3b9]), (0x1fc8, [0x1f72]), (0x1fc9, [0x1f73]), (0x1fca, [0x1f74]), (0x1fcb, [0x1f75]),
  (0x1fcc, [0x3b7, 0x3b9]), (0x1fd2, [0x3b9, 0x308, 0x300]), (0x1fd3, [0x3b9, 0x308, 0x301]), (0x1fd6, [0x3b9, 0x342]),
  (0x1fd7, [0x3b9, 0x308, 0x342]), (0x1fd8, [0x1fd0]), (0x1fd9, [0x1fd1]), (0x1fda, [0x1f76]), (0x1fdb, [0x1f77]), (0x1fe2, [0x3c5, 0x308, 0x300]),
  (0x1fe3, [0x3c5, 0x308, 0x301]), (0x1fe4, [0x3c1, 0x313]), (0x1fe6, [0x3c5, 0x342]), (0x1fe7, [0x3c5, 0x308, 0x342]), (0x1fe8, [0x1fe0]),
  (0x1fe9, [0x1fe1]), (0x1fea, [0x1f7a]), (0x1feb, [0x1f7b]), (0x1fec, [0x1fe5]), (0x1ff2, [0x1f7c, 0x3b9]), (0x1ff3, [0x3c9, 0x3b9]),
  (0x1ff4, [0x3ce, 0x3b9]), (0x1ff6, [0x3c9, 0x342]), (0x1ff7, [0x3c9, 0x342, 0x3b9]), (0x1ff8, [0x1f78]), (0x1ff9, [0x1f79]), (0x1ffa, [0x1f7c]),
  (0x1ffb, [0x1f7d]), (0x1ffc, [0x3c9, 0x3b9])]

/-- full case foldings, U+2100 to U+21FF -/
def caseFolding21 : List (Nat × List Nat) := [
  (0x2126, [0x3c9]), (0x212a, [0x6b]), (0x212b, [0xe5]), (0x2132, [0x214e]), (0x2160, [0x2170]), (0x2161, [0x2171]), (0x2162, [0x2172]),
  (0x2163, [0x2173]), (0x2164, [0x2174]), (0x2165, [0x2175]), (0x2166, [0x2176]), (0x2167, [0x2177]), (0x2168, [0x2178]), (0x2169, [0x2179]),
  (0x216a, [0x217a]), (0x216b, [0x217b]), (0x216c, [0x217c]), (0x216d, [0x217d]), (0x216e, [0x217e]), (0x216f, [0x217f]), (0x2183, [0x2184])]

/-- full case foldings, U+2400 to U+24FF -/
def caseFolding24 : List (Nat × List Nat) := [
  (0x24b6, [0x24d0]), (0x24b7, [0x24d1]), (0x24b8, [0x24d2]), (0x24b9, [0x24d3]), (0x24ba, [0x24d4]), (0x24bb, [0x24d5]), (0x24bc, [0x24d6]),
  (0x24bd, [0x24d7]), (0x24be, [0x24d8]), (0x24bf, [0x24d9]), (0x24c0, [0x24da]), (0x24c1, [0x24db]), (0x24c2, [0x24dc]), (0x24c3, [0x24dd]),
  (0x24c4, [0x24de]), (0x24c5, [0x24df]), (0x24c6, [0x24e0]), (0x24c7, [0x24e1]), (0x24c8, [0x24e2]), (0x24c9, [0x24e3]), (0x24ca, [0x24e4]),
  (0x24cb, [0x24e5]), (0x24cc, [0x24e6]), (0x24cd, [0x24e7]), (0x24ce, [0x24e8]), (0x24cf, [0x24e9])]

/-- full case foldings, U+2C00 to U+2CFF -/
def caseFolding2c : List (Nat × List Nat) := [
  (0x2c00, [0x2c30]), (0x2c01, [0x2c31]), (0x2c02, [0x2c32]), (0x2c03, [0x2c33]), (0x2c04, [0x2c34]), (0x2c05, [0x2c35]), (0x2c06, [0x2c36]),
  (0x2c07, [0x2c37]), (0x2c08, [0x2c38]), (0x2c09, [0x2c39]), (0x2c0a, [0x2c3a]), (0x2c0b, [0x2c3b]), (0x2c0c, [0x2c3c]), (0x2c0d, [0x2c3d]),
  (0x2c0e, [0x2c3e]), (0x2c0f, [0x2c3f]), (0x2c10, [0x2c40]), (0x2c11, [0x2c41]), (0x2c12, [0x2c42]), (0x2c13, [0x2c43]), (0x2c14, [0x2c44]),
  (0x2c15, [0x2c45]), (0x2c16, [0x2c46]), (0x2c17, [0x2c47]), (0x2c18, [0x2c48]), (0x2c19, [0x2c49]), (0x2c1a, [0x2c4a]), (0x2c1b, [0x2c4b]),
  (0x2c1c, [0x2c4c]), (0x2c1d, [0x2c4d]), (0x2c1e, [0x2c4e]), (0x2c1f, [0x2c4f]), (0x2c20, [0x2c50]), (0x2c21, [0x2c51]), (0x2c22, [0x2c52]),
  (0x2c23, [0x2c53]), (0x2c24, [0x2c54]), (0x2c25, [0x2c55]), (0x2c26, [0x2c56]), (0x2c27, [0x2c57]), (0x2c28, [0x2c58]), (0x2c29, [0x2c59]),
  (0x2c2a, [0x2c5a]), (0x2c2b, [0x2c5b]), (0x2c2c, [0x2c5c]), (0x2c2d, [0x2c5d]), (0x2c2e, [0x2c5e]), (0x2c2f, [0x2c5f]), (0x2c60, [0x2c61]),
  (0x2c62, [0x26b]), (0x2c63, [0x1d7d]), (0x2c64, [0x27d]), (0x2c67, [0x2c68]), (0x2c69, [0x2c6a]), (0x2c6b, [0x2c6c]), (0x2c6d, [0x251]),
  (0x2c6e, [0x271]), (0x2c6f, [0x250]), (0x2c70, [0x252]), (0x2c72, [0x2c73]), (0x2c75, [0x2c76]), (0x2c7e, [0x23f]), (0x2c7f, [0x240]),
  (0x2c80, [0x2c81]), (0x2c82, [0x2c83]), (0x2c84, [0x2c85]), (0x2c86, [0x2c87]), (0x2c88, [0x2c89]), (0x2c8a, [0x2c8b]), (0x2c8c, [0x2c8d]),
  (0x2c8e, [0x2c8f]), (0x2c90, [0x2c91]), (0x2c92, [0x2c93]), (0x2c94, [0x2c95]), (0x2c96, [0x2c97]), (0x2c98, [0x2c99]), (0x2c9a, [0x2c9b]),
  (0x2c9c, [0x2c9d]), (0x2c9e, [0x2c9f]), (0x2ca0, [0x2ca1]), (0x2ca2, [0x2ca3]), (0x2ca4, [0x2ca5]), (0x2ca6, [0x2ca7]), (0x2ca8, [0x2ca9]),
  (0x2caa, [0x2cab]), (0x2cac, [0x2cad]), (0x2cae, [0x2caf]), (0x2cb0, [0x2cb1]), (0x2cb2, [0x2cb3]), (0x2cb4, [0x2cb5]), (0x2cb6, [0x2cb7]),
  (0x2cb8, [0x2cb9]), (0x2cba, [0x2cbb]), (0x2cbc, [0x2cbd]), (0x2cbe, [0x2cbf]), (0x2cc0, [0x2cc1]), (0x2cc2, [0x2cc3]), (0x2cc4, [0x2cc5]),
  (0x2cc6, [0x2cc7]), (0x2cc8, [0x2cc9]), (0x2cca, [0x2ccb]), (0x2ccc, [0x2ccd]), (0x2cce, [0x2ccf]), (0x2cd0, [0x2cd1]), (0x2cd2, [0x2cd3]),
  (0x2cd4, [0x2cd5]), (0x2cd6, [0x2cd7]), (0x2cd8, [0x2cd9]), (0x2cda, [0x2cdb]), (0x2cdc, [0x2cdd]), (0x2cde, [0x2cdf]), (0x2ce0, [0x2ce1]),
  (0x2ce2, [0x2ce3]), (0x2ceb, [0x2cec]), (0x2ced, [0x2cee]), (0x2cf2, [0x2cf3])]

/-- full case foldings, U+A600 to U+A6FF -/
def caseFoldinga6 : List (Nat × List Nat) := [
  (0xa640, [0xa641]), (0xa642, [0xa643]), (0xa644, [0xa645]), (0xa646, [0xa647]), (0xa648, [0xa649]), (0xa64a, [0xa64b]), (0xa64c, [0xa64d]),
  (0xa64e, [0xa64f]), (0xa650, [0xa651]), (0xa652, [0xa653]), (0xa654, [0xa655]), (0xa656, [0xa657]), (0xa658, [0xa659]), (0xa65a, [0xa65b]),
  (0xa65c, [0xa65d]), (0xa65e, [0xa65f]), (0xa660, [0xa661]), (0xa662, [0xa663]), (0xa664, [0xa665]), (0xa666, [0xa667]), (0xa668, [0xa669]),
  (0xa66a, [0xa66b]), (0xa66c, [0xa66d]), (0xa680, [0xa681]), (0xa682, [0xa683]), (0xa684, [0xa685]), (0xa686, [0xa687]), (0xa688, [0xa689]),
  (0xa68a, [0xa68b]), (0xa68c, [0xa68d]), (0xa68e, [0xa68f]), (0xa690, [0xa691]), (0xa692, [0xa693]), (0xa694, [0xa695]), (0xa696, [0xa697]),
  (0xa698, [0xa699]), (0xa69a, [0xa69b])]

/-- full case foldings, U+A700 to U+A7FF -/
def caseFoldinga7 : List (Nat × List Nat) := [
  (0xa722, [0xa723]), (0xa724, [0xa725]), (0xa726, [0xa727]), (0xa728, [0xa729]), (0xa72a, [0xa72b]), (0xa72c, [0xa72d]), (0xa72e, [0xa72f]),
  (0xa732, [0xa733]), (0xa734, [0xa735]), (0xa736, [0xa737]), (0xa738, [0xa739]), (0xa73a, [0xa73b]), (0xa73c, [0xa73d]), (0xa73e, [0xa73f]),
  (0xa740, [0xa741]), (0xa742, [0xa743]), (0xa744, [0xa745]), (0xa746, [0xa747]), (0xa748, [0xa749]), (0xa74a, [0xa74b]), (0xa74c, [0xa74d]),
  (0xa74e, [0xa74f]), (0xa750, [0xa751]), (0xa752, [0xa753]), (0xa754, [0xa755]), (0xa756, [0xa757]), (0xa758, [0xa759]), (0xa75a, [0xa75b]),
  (0xa75c, [0xa75d]), (0xa75e, [0xa75f]), (0xa760, [0xa761]), (0xa762, [0xa763]), (0xa764, [0xa765]), (0xa766, [0xa767]), (0xa768, [0xa769]),
  (0xa76a, [0xa76b]), (0xa76c, [0xa76d]), (0xa76e, [0xa76f]), (0xa779, [0xa77a]), (0xa77b, [0xa77c]), (0xa77d, [0x1d79]), (0xa77e, [0xa77f]),
  (0xa780, [0xa781]), (0xa782, [0xa783]), (0xa784, [0xa785]), (0xa786, [0xa787]), (0xa78b, [0xa78c]), (0xa78d, [0x265]), (0xa790, [0xa791]),
  (0xa792, [0xa793]), (0xa796, [0xa797]), (0xa798, [0xa799]), (0xa79a, [0xa79b]), (0xa79c, [0xa79d]), (0xa79e, [0xa79f]), (0xa7a0, [0xa7a1]),
  (0xa7a2, [0xa7a3]), (0xa7a4, [0xa7a5]), (0xa7a6, [0xa7a7]), (0xa7a8, [0xa7a9]), (0xa7aa, [0x266]), (0xa7ab, [0x25c]), (0xa7ac, [0x261]),
  (0xa7ad, [0x26c]), (0xa7ae, [0x26a]), (0xa7b0, [0x29e]), (0xa7b1, [0x287]), (0xa7b2, [0x29d]), (0xa7b3, [0xab53]), (0xa7b4, [0xa7b5]),
  (0xa7b6, [0xa7b7]), (0xa7b8, [0xa7b9]), (0xa7ba, [0xa7bb]), (0xa7bc, [0xa7bd]), (0xa7be, [0xa7bf]), (0xa7c0, [0xa7c1]), (0xa7c2, [0xa7c3]),
  (0xa7c4, [0xa794]), (0xa7c5, [0x282]), (0xa7c6, [0x1d8e]), (0xa7c7, [0xa7c8]), (0xa7c9, [0xa7ca]), (0xa7d0, [0xa7d1]), (0xa7d6, [0xa7d7]),
  (0xa7d8, [0xa7d9]), (0xa7f5, [0xa7f6])]

/-- full case foldings, U+AB00 to U+ABFF -/
def caseFoldingab : List (Nat × List Nat) := [
  (0xab70, [0x13a0]), (0xab71, [0x13a1]), (0xab72, [0x13a2]), (0xab73, [0x13a3]), (0xab74, [0x13a4]), (0xab75, [0x13a5]), (0xab76, [0x13a6]),
  (0xab77, [0x13a7]), (0xab78, [0x13a8]), (0xab79, [0x13a9]), (0xab7a, [0x13aa]), (0xab7b, [0x13ab]), (0xab7c, [0x13ac]), (0xab7d, [0x13ad]),
  (0xab7e, [0x13ae]), (0xab7f, [0x13af]), (0xab80, [0x13b0]), (0xab81, [0x13b1]), (0xab82, [0x13b2]), (0xab83, [0x13b3]), (0xab84, [0x13b4]),
  (0xab85, [0x13b5]), (0xab86, [0x13b6]), (0xab87, [0x13b7]), (0xab88, [0x13b8]), (0xab89, [0x13b9]), (0xab8a, [0x13ba]), (0xab8b, [0x13bb]),
  (0xab8c, [0x13bc]), (0xab8d, [0x13bd]), (0xab8e, [0x13be]), (0xab8f, [0x13bf]), (0xab90, [0x13c0]), (0xab91, [0x13c1]), (0xab92, [0x13c2]),
  (0xab93, [0x13c3]), (0xab94, [0x13c4]), (0xab95, [0x13c5]), (0xab96, [0x13c6]), (0xab97, [0x13c7]), (0xab98, [0x13c8]), (0xab99, [0x13c9]),
  (0xab9a, [0x13ca]), (0xab9b, [0x13cb]), (0xab9c, [0x13cc]), (0xab9d, [0x13cd]), (0xab9e, [0x13ce]), (0xab9f, [0x13cf]), (0xaba0, [0x13d0]),
  (0xaba1, [0x13d1]), (0xaba2, [0x13d2]), (0xaba3, [0x13d3]), (0xaba4, [0x13d4]), (0xaba5, [0x13d5]), (0xaba6, [0x13d6]), (0xaba7, [0x13d7]),
  (0xaba8, [0x13d8]), (0xaba9, [0x13d9]), (0xabaa, [0x13da]), (0xabab, [0x13db]), (0xabac, [0x13dc]), (0xabad, [0x13dd]), (0xabae, [0x13de]),
  (0xabaf, [0x13df]), (0xabb0, [0x13e0]), (0xabb1, [0x13e1]), (0xabb2, [0x13e2]), (0xabb3, [0x13e3]), (0xabb4, [0x13e4]), (0xabb5, [0x13e5]),
  (0xabb6, [0x13e6]), (0xabb7, [0x13e7]), (0xabb8, [0x13e8]), (0xabb9, [0x13e9]), (0xabba, [0x13ea]), (0xabbb, [0x13eb]), (0xabbc, [0x13ec]),
  (0xabbd, [0x13ed]), (0xabbe, [0x13ee]), (0xabbf, [0x13ef])]

/-- full case foldings, U+FB00 to U+FBFF -/
def caseFoldingfb : List (Nat × List Nat) := [
  (0xfb00, [0x66, 0x66]), (0xfb01, [0x66, 0x69]), (0xfb02, [0x66, 0x6c]), (0xfb03, [0x66, 0x66, 0x69]), (0xfb04, [0x66, 0x66, 0x6c]),
  (0xfb05, [0x73, 0x74]), (0xfb06, [0x73, 0x74]), (0xfb13, [0x574, 0x576]), (0xfb14, [0x574, 0x565]), (0xfb15, [0x574, 0x56b]),
  (0xfb16, [0x57e, 0x576]), (0xfb17, [0x574, 0x56d])]

/-- full case foldings, U+FF00 to U+FFFF -/
def caseFoldingff : List (Nat × List Nat) := [
  (0xff21, [0xff41]), (0xff22, [0xff42]), (0xff23, [0xff43]), (0xff24, [0xff44]), (0xff25, [0xff45]), (0xff26, [0xff46]), (0xff27, [0xff47]),
  (0xff28, [0xff48]), (0xff29, [0xff49]), (0xff2a, [0xff4a]), (0xff2b, [0xff4b]), (0xff2c, [0xff4c]), (0xff2d, [0xff4d]), (0xff2e, [0xff4e]),
  (0xff2f, [0xff4f]), (0xff30, [0xff50]), (0xff31, [0xff51]), (0xff32, [0xff52]), (0xff33, [0xff53]), (0xff34, [0xff54]), (0xff35, [0xff55]),
  (0xff36, [0xff56]), (0xff37, [0xff57]), (0xff38, [0xff58]), (0xff39, [0xff59]), (0xff3a, [0xff5a])]

/-- full case foldings, U+10400 to U+104FF -/
def caseFolding104 : List (Nat × List Nat) := [
  (0x10400, [0x10428]), (0x10401, [0x10429]), (0x10402, [0x1042a]), (0x10403, [0x1042b]), (0x10404, [0x1042c]), (0x10405, [0x1042d]),
  (0x10406, [0x1042e]), (0x10407, [0x1042f]), (0x10408, [0x10430]), (0x10409, [0x10431]), (0x1040a, [0x10432]), (0x1040b, [0x10433]),
  (0x1040c, [0x10434]), (0x1040d, [0x10435]), (0x1040e, [0x10436]), (0x1040f, [0x10437]), (0x10410, [0x10438]), (0x10411, [0x10439]),
  (0x10412, [0x1043a]), (0x10413, [0x1043b]), (0x10414, [0x1043c]), (0x10415, [0x1043d]), (0x10416, [0x1043e]), (0x10417, [0x1043f]),
  (0x10418, [0x10440]), (0x10419, [0x10441]), (0x1041a, [0x10442]), (0x1041b, [0x10443]), (0x1041c, [0x10444]), (0x1041d, [0x10445]),
  (0x1041e, [0x10446]), (0x1041f, [0x10447]), (0x10420, [0x10448]), (0x10421, [0x10449]), (0x10422, [0x1044a]), (0x10423, [0x1044b]),
  (0x10424, [0x1044c]), (0x10425, [0x1044d]), (0x10426, [0x1044e]), (0x10427, [0x1044f]), (0x104b0, [0x104d8]), (0x104b1, [0x104d9]),
  (0x104b2, [0x104da]), (0x104b3, [0x104db]), (0x104b4, [0x104dc]), (0x104b5, [0x104dd]), (0x104b6, [0x104de]), (0x104b7, [0x104df]),
  (0x104b8, [0x104e0]), (0x104b9, [0x104e1]), (0x104ba, [0x104e2]), (0x104bb, [0x104e3]), (0x104bc, [0x104e4]), (0x104bd, [0x104e5]),
  (0x104be, [0x104e6]), (0x104bf, [0x104e7]), (0x104c0, [0x104e8]), (0x104c1, [0x104e9]), (0x104c2, [0x104ea]), (0x104c3, [0x104eb]),
  (0x104c4, [0x104ec]), (0x104c5, [0x104ed]), (0x104c6, [0x104ee]), (0x104c7, [0x104ef]), (0x104c8, [0x104f0]), (0x104c9, [0x104f1]),
  (0x104ca, [0x104f2]), (0x104cb, [0x104f3]), (0x104cc, [0x104f4]), (0x104cd, [0x104f5]), (0x104ce, [0x104f6]), (0x104cf, [0x104f7]),
  (0x104d0, [0x104f8]), (0x104d1, [0x104f9]), (0x104d2, [0x104fa]), (0x104d3, [0x104fb])]

/-- full case foldings, U+10500 to U+105FF -/
def caseFolding105 : List (Nat × List Nat) := [
  (0x10570, [0x10597]), (0x10571, [0x10598]), (0x10572, [0x10599]), (0x10573, [0x1059a]), (0x10574, [0x1059b]), (0x10575, [0x1059c]),
  (0x10576, [0x1059d]), (0x10577, [0x1059e]), (0x10578, [0x1059f]), (0x10579, [0x105a0]), (0x1057a, [0x105a1]), (0x1057c, [0x105a3]),
  (0x1057d, [0x105a4]), (0x1057e, [0x105a5]), (0x1057f, [0x105a6]), (0x10580, [0x105a7]), (0x10581, [0x105a8]), (0x10582, [0x105a9]),
  (0x10583, [0x105aa]), (0x10584, [0x105ab]), (0x10585, [0x105ac]), (0x10586, [0x105ad]), (0x10587, [0x105ae]), (0x10588, [0x105af]),
  (0x10589, [0x105b0]), (0x1058a, [0x105b1]), (0x1058c, [0x105b3]), (0x1058d, [0x105b4]), (0x1058e, [0x105b5]), (0x1058f, [0x105b6]),
  (0x10590, [0x105b7]), (0x10591, [0x105b8]), (0x10592, [0x105b9]), (0x10594, [0x105bb]), (0x10595, [0x105bc])]

/-- full case foldings, U+10C00 to U+10CFF -/
def caseFolding10c : List (Nat × List Nat) := [
  (0x10c80, [0x10cc0]), (0x10c81, [0x10cc1]), (0x10c82, [0x10cc2]), (0x10c83, [0x10cc3]), (0x10c84, [0x10cc4]), (0x10c85, [0x10cc5]),
  (0x10c86, [0x10cc6]), (0x10c87, [0x10cc7]), (0x10c88, [0x10cc8]), (0x10c89, [0x10cc9]), (0x10c8a, [0x10cca]), (0x10c8b, [0x10ccb]),
  (0x10c8c, [0x10ccc]), (0x10c8d, [0x10ccd]), (0x10c8e, [0x10cce]), (0x10c8f, [0x10ccf]), (0x10c90, [0x10cd0]), (0x10c91, [0x10cd1]),
  (0x10c92, [0x10cd2]), (0x10c93, [0x10cd3]), (0x10c94, [0x10cd4]), (0x10c95, [0x10cd5]), (0x10c96, [0x10cd6]), (0x10c97, [0x10cd7]),
  (0x10c98, [0x10cd8]), (0x10c99, [0x10cd9]), (0x10c9a, [0x10cda]), (0x10c9b, [0x10cdb]), (0x10c9c, [0x10cdc]), (0x10c9d, [0x10cdd]),
  (0x10c9e, [0x10cde]), (0x10c9f, [0x10cdf]), (0x10ca0, [0x10ce0]), (0x10ca1, [0x10ce1]), (0x10ca2, [0x10ce2]), (0x10ca3, [0x10ce3]),
  (0x10ca4, [0x10ce4]), (0x10ca5, [0x10ce5]), (0x10ca6, [0x10ce6]), (0x10ca7, [0x10ce7]), (0x10ca8, [0x10ce8]), (0x10ca9, [0x10ce9]),
  (0x10caa, [0x10cea]), (0x10cab, [0x10ceb]), (0x10cac, [0x10cec]), (0x10cad, [0x10ced]), (0x10cae, [0x10cee]), (0x10caf, [0x10cef]),
  (0x10cb0, [0x10cf0]), (0x10cb1, [0x10cf1]), (0x10cb2, [0x10cf2])]

/-- full case foldings, U+11800 to U+118FF -/
def caseFolding118 : List (Nat × List Nat) := [
  (0x118a0, [0x118c0]), (0x118a1, [0x118c1]), (0x118a2, [0x118c2]), (0x118a3, [0x118c3]), (0x118a4, [0x118c4]), (0x118a5, [0x118c5]),
  (0x118a6, [0x118c6]), (0x118a7, [0x118c7]), (0x118a8, [0x118c8]), (0x118a9, [0x118c9]), (0x118aa, [0x118ca]), (0x118ab, [0x118cb]),
  (0x118ac, [0x118cc]), (0x118ad, [0x118cd]), (0x118ae, [0x118ce]), (0x118af, [0x118cf]), (0x118b0, [0x118d0]), (0x118b1, [0x118d1]),
  (0x118b2, [0x118d2]), (0x118b3, [0x118d3]), (0x118b4, [0x118d4]), (0x118b5, [0x118d5]), (0x118b6, [0x118d6]), (0x118b7, [0x118d7]),
  (0x118b8, [0x118d8]), (0x118b9, [0x118d9]), (0x118ba, [0x118da]), (0x118bb, [0x118db]), (0x118bc, [0x118dc]), (0x118bd, [0x118dd]),
  (0x118be, [0x118de]), (0x118bf, [0x118df])]

/-- full case foldings, U+16E00 to U+16EFF -/
def caseFolding16e : List (Nat × List Nat) := [
  (0x16e40, [0x16e60]), (0x16e41, [0x16e61]), (0x16e42, [0x16e62]), (0x16e43, [0x16e63]), (0x16e44, [0x16e64]), (0x16e45, [0x16e65]),
  (0x16e46, [0x16e66]), (0x16e47, [0x16e67]), (0x16e48, [0x16e68]), (0x16e49, [0x16e69]), (0x16e4a, [0x16e6a]), (0x16e4b, [0x16e6b]),
  (0x16e4c, [0x16e6c]), (0x16e4d, [0x16e6d]), (0x16e4e, [0x16e6e]), (0x16e4f, [0x16e6f]), (0x16e50, [0x16e70]), (0x16e51, [0x16e71]),
  (0x16e52, [0x16e72]), (0x16e53, [0x16e73]), (0x16e54, [0x16e74]), (0x16e55, [0x16e75]), (0x16e56, [0x16e76]), (0x16e57, [0x16e77]),
  (0x16e58, [0x16e78]), (0x16e59, [0x16e79]), (0x16e5a, [0x16e7a]), (0x16e5b, [0x16e7b]), (0x16e5c, [0x16e7c]), (0x16e5d, [0x16e7d]),
  (0x16e5e, [0x16e7e]), (0x16e5f, [0x16e7f])]

/-- full case foldings, U+1E900 to U+1E9FF -/
def caseFolding1e9 : List (Nat × List Nat) := [
  (0x1e900, [0x1e922]), (0x1e901, [0x1e923]), (0x1e902, [0x1e924]), (0x1e903, [0x1e925]), (0x1e904, [0x1e926]), (0x1e905, [0x1e927]),
  (0x1e906, [0x1e928]), (0x1e907, [0x1e929]), (0x1e908, [0x1e92a]), (0x1e909, [0x1e92b]), (0x1e90a, [0x1e92c]), (0x1e90b, [0x1e92d]),
  (0x1e90c, [0x1e92e]), (0x1e90d, [0x1e92f]), (0x1e90e, [0x1e930]), (0x1e90f, [0x1e931]), (0x1e910, [0x1e932]), (0x1e911, [0x1e933]),
  (0x1e912, [0x1e934]), (0x1e913, [0x1e935]), (0x1e914, [0x1e936]), (0x1e915, [0x1e937]), (0x1e916, [0x1e938]), (0x1e917, [0x1e939]),
  (0x1e918, [0x1e93a]), (0x1e919, [0x1e93b]), (0x1e91a, [0x1e93c]), (0x1e91b, [0x1e93d]), (0x1e91c, [0x1e93e]), (0x1e91d, [0x1e93f]),
  (0x1e91e, [0x1e940]), (0x1e91f, [0x1e941]), (0x1e920, [0x1e942]), (0x1e921, [0x1e943])]

/-- full case foldings -/
def caseFoldingPages : List (Nat × List (Nat × List Nat)) := [
  (0x0, caseFolding0), (0x1, caseFolding1), (0x2, caseFolding2), (0x3, caseFolding3), (0x4, caseFolding4), (0x5, caseFolding5),
  (0x10, caseFolding10), (0x13, caseFolding13), (0x1c, caseFolding1c), (0x1e, caseFolding1e), (0x1f, caseFolding1f), (0x21, caseFolding21),
  (0x24, caseFolding24), (0x2c, caseFolding2c), (0xa6, caseFoldinga6), (0xa7, caseFoldinga7), (0xab, caseFoldingab), (0xfb, caseFoldingfb),
  (0xff, caseFoldingff), (0x104, caseFolding104), (0x105, caseFolding105), (0x10c, caseFolding10c), (0x118, caseFolding118), (0x16e, caseFolding16e),
  (0x1e9, caseFolding1e9)]

/-- canonical combining classes other than 0, U+300 to U+3FF -/
def combining3 : List (Nat × Nat) := [
  (0x300, 230), (0x301, 230), (0x302, 230), (0x303, 230), (0x304, 230), (0x305, 230), (0x306, 230), (0x307, 230), (0x308, 230), (0x309, 230),
  (0x30a, 230), (0x30b, 230), (0x30c, 230), (0x30d, 230), (0x30e, 230), (0x30f, 230), (0x310, 230), (0x311, 230), (0x312, 230), (0x313, 230),
  (0x314, 230), (0x315, 232), (0x316, 220), (0x317, 220), (0x318, 220), (0x319, 220), (0x31a, 232), (0x31b, 216), (0x31c, 220), (0x31d, 220),
  (0x31e, 220), (0x31f, 220), (0x320, 220), (0x321, 202), (0x322, 202), (0x323, 220), (0x324, 220), (0x325, 220), (0x326, 220), (0x327, 202),
  (0x328, 202), (0x329, 220), (0x32a, 220), (0x32b, 220), (0x32c, 220), (0x32d, 220), (0x32e, 220), (0x32f, 220), (0x330, 220), (0x331, 220),
  (0x332, 220), (0x333, 220), (0x334, 1), (0x335, 1), (0x336, 1), (0x337, 1), (0x338, 1), (0x339, 220), (0x33a, 220), (0x33b, 220), (0x33c, 220),
  (0x33d, 230), (0x33e, 230), (0x33f, 230), (0x340, 230), (0x341, 230), (0x342, 230), (0x343, 230), (0x344, 230), (0x345, 240), (0x346, 230),
  (0x347, 220), (0x348, 220), (0x349, 220), (0x34a, 230), (0x34b, 230), (0x34c, 230), (0x34d, 220), (0x34e, 220), (0x350, 230), (0x351, 230),
  (0x352, 230), (0x353, 220), (0x354, 220), (0x355, 220), (0x356, 220), (0x357, 230), (0x358, 232), (0x359, 220), (0x35a, 220), (0x35b, 230),
  (0x35c, 233), (0x35d, 234), (0x35e, 234), (0x35f, 233), (0x360, 234), (0x361, 234), (0x362, 233), (0x363, 230), (0x364, 230), (0x365, 230),
  (0x366, 230), (0x367, 230), (0x368, 230), (0x369, 230), (0x36a, 230), (0x36b, 230), (0x36c, 230), (0x36d, 230), (0x36e, 230), (0x36f, 230)]

/-- canonical combining classes other than 0, U+400 to U+4FF -/
def combining4 : List (Nat × Nat) := [
  (0x483, 230), (0x484, 230), (0x485, 230), (0x486, 230), (0x487, 230)]

/-- canonical combining classes other than 0, U+500 to U+5FF -/
def combining5 : List (Nat × Nat) := [
  (0x591, 220), (0x592, 230), (0x593, 230), (0x594, 230), (0x595, 230), (0x596, 220), (0x597, 230), (0x598, 230), (0x599, 230), (0x59a, 222),
  (0x59b, 220), (0x59c, 230), (0x59d, 230), (0x59e, 230), (0x59f, 230), (0x5a0, 230), (0x5a1, 230), (0x5a2, 220), (0x5a3, 220), (0x5a4, 220),
  (0x5a5, 220), (0x5a6, 220), (0x5a7, 220), (0x5a8, 230), (0x5a9, 230), (0x5aa, 220), (0x5ab, 230), (0x5ac, 230), (0x5ad, 222), (0x5ae, 228),
  (0x5af, 230), (0x5b0, 10), (0x5b1, 11), (0x5b2, 12), (0x5b3, 13), (0x5b4, 14), (0x5b5, 15), (0x5b6, 16), (0x5b7, 17), (0x5b8, 18), (0x5b9, 19),
  (0x5ba, 19), (0x5bb, 20), (0x5bc, 21), (0x5bd, 22), (0x5bf, 23), (0x5c1, 24), (0x5c2, 25), (0x5c4, 230), (0x5c5, 220), (0x5c7, 18)]

/-- canonical combining classes other than 0, U+600 to U+6FF -/
def combining6 : List (Nat × Nat) := [
  (0x610, 230), (0x611, 230), (0x612, 230), (0x613, 230), (0x614, 230), (0x615, 230), (0x616, 230), (0x617, 230), (0x618, 30), (0x619, 31),
  (0x61a, 32), (0x64b, 27), (0x64c, 28), (0x64d, 29), (0x64e, 30), (0x64f, 31), (0x650, 32), (0x651, 33), (0x652, 34), (0x653, 230), (0x654, 230),
  (0x655, 220), (0x656, 220), (0x657, 230), (0x658, 230), (0x659, 230), (0x65a, 230), (0x65b, 230), (0x65c, 220), (0x65d, 230), (0x65e, 230),
  (0x65f, 220), (0x670, 35), (0x6d6, 230), (0x6d7, 230), (0x6d8, 230), (0x6d9, 230), (0x6da, 230), (0x6db, 230), (0x6dc, 230), (0x6df, 230),
  (0x6e0, 230), (0x6e1, 230), (0x6e2, 230), (0x6e3, 220), (0x6e4, 230), (0x6e7, 230), (0x6e8, 230), (0x6ea, 220), (0x6eb, 230), (0x6ec, 230),
  (0x6ed, 220)]

/-- canonical combining classes other than 0, U+700 to U+7FF -/
def combining7 : List (Nat × Nat) := [
  (0x711, 36), (0x730, 230), (0x731, 220), (0x732, 230), (0x733, 230), (0x734, 220), (0x735, 230), (0x736, 230), (0x737, 220), (0x738, 220),
  (0x739, 220), (0x73a, 230), (0x73b, 220), (0x73c, 220), (0x73d, 230), (0x73e, 220), (0x73f, 230), (0x740, 230), (0x741, 230), (0x742, 220),
  (0x743, 230), (0x744, 220), (0x745, 230), (0x746, 220), (0x747, 230), (0x748, 220), (0x749, 230), (0x74a, 230), (0x7eb, 230), (0x7ec, 230),
  (0x7ed, 230), (0x7ee, 230), (0x7ef, 230), (0x7f0, 230), (0x7f1, 230), (0x7f2, 220), (0x7f3, 230), (0x7fd, 220)]

/-- canonical combining classes other than 0, U+800 to U+8FF -/
def combining8 : List (Nat × Nat) := [
  (0x816, 230), (0x817, 230), (0x818, 230), (0x819, 230), (0x81b, 230), (0x81c, 230), (0x81d, 230), (0x81e, 230), (0x81f, 230), (0x820, 230),
  (0x821, 230), (0x822, 230), (0x823, 230), (0x825, 230), (0x826, 230), (0x827, 230), (0x829, 230), (0x82a, 230), (0x82b, 230), (0x82c, 230),
  (0x82d, 230), (0x859, 220), (0x85a, 220), (0x85b, 220), (0x898, 230), (0x899, 220), (0x89a, 220), (0x89b, 220), (0x89c, 230), (0x89d, 230),
  (0x89e, 230), (0x89f, 230), (0x8ca, 230), (0x8cb, 230), (0x8cc, 230), (0x8cd, 230), (0x8ce, 230), (0x8cf, 220), (0x8d0, 220), (0x8d1, 220),
  (0x8d2, 220), (0x8d3, 220), (0x8d4, 230), (0x8d5, 230), (0x8d6, 230), (0x8d7, 230), (0x8d8, 230), (0x8d9, 230), (0x8da, 230), (0x8db, 230),
  (0x8dc, 230), (0x8dd, 230), (0x8de, 230), (0x8df, 230), (0x8e0, 230), (0x8e1, 230), (0x8e3, 220), (0x8e4, 230), (0x8e5, 230), (0x8e6, 220),
  (0x8e7, 230), (0x8e8, 230), (0x8e9, 220), (0x8ea, 230), (0x8eb, 230), (0x8ec, 230), (0x8ed, 220), (0x8ee, 220), (0x8ef, 220), (0x8f0, 27),
  (0x8f1, 28), (0x8f2, 29), (0x8f3, 230), (0x8f4, 230), (0x8f5, 230), (0x8f6, 220), (0x8f7, 230), (0x8f8, 230), (0x8f9, 220), (0x8fa, 220),
  (0x8fb, 230), (0x8fc, 230), (0x8fd, 230), (0x8fe, 230), (0x8ff, 230)]

/-- canonical combining classes other than 0, U+900 to U+9FF -/
def combining9 : List (Nat × Nat) := [
  (0x93c, 7), (0x94d, 9), (0x951, 230), (0x952, 220), (0x953, 230), (0x954, 230), (0x9bc, 7), (0x9cd, 9), (0x9fe, 230)]

/-- canonical combining classes other than 0, U+A00 to U+AFF -/
def combininga : List (Nat × Nat) := [
  (0xa3c, 7), (0xa4d, 9), (0xabc, 7), (0xacd, 9)]

/-- canonical combining classes other than 0, U+B00 to U+BFF -/
def combiningb : List (Nat × Nat) := [
  (0xb3c, 7), (0xb4d, 9), (0xbcd, 9)]

/-- canonical combining classes other than 0, U+C00 to U+CFF -/
def combiningc : List (Nat × Nat) := [
  (0xc3c, 7), (0xc4d, 9), (0xc55, 84), (0xc56, 91), (0xcbc, 7), (0xccd, 9)]

/-- canonical combining classes other than 0, U+D00 to U+DFF -/
def combiningd : List (Nat × Nat) := [
  (0xd3b, 9), (0xd3c, 9), (0xd4d, 9), (0xdca, 9)]

/-- canonical combining classes other than 0, U+E00 to U+EFF -/
def combininge : List (Nat × Nat) := [
  (0xe38, 103), (0xe39, 103), (0xe3a, 9), (0xe48, 107), (0xe49, 107), (0xe4a, 107), (0xe4b, 107), (0xeb8, 118), (0xeb9, 118), (0xeba, 9),
  (0xec8, 122), (0xec9, 122), (0xeca, 122), (0xecb, 122)]

/-- canonical combining classes other than 0, U+F00 to U+FFF -/
def combiningf : List (Nat × Nat) := [
  (0xf18, 220), (0xf19, 220), (0xf35, 220), (0xf37, 220), (0xf39, 216), (0xf71, 129), (0xf72, 130), (0xf74, 132), (0xf7a, 130), (0xf7b, 130),
  (0xf7c, 130), (0xf7d, 130), (0xf80, 130), (0xf82, 230), (0xf83, 230), (0xf84, 9), (0xf86, 230), (0xf87, 230), (0xfc6, 220)]

/-- canonical combining classes other than 0, U+1000 to U+10FF -/
def combining10 : List (Nat × Nat) := [
  (0x1037, 7), (0x1039, 9), (0x103a, 9), (0x108d, 220)]

/-- canonical combining classes other than 0, U+1300 to U+13FF -/
def combining13 : List (Nat × Nat) := [
  (0x135d, 230), (0x135e, 230), (0x135f, 230)]

/-- canonical combining classes other than 0, U+1700 to U+17FF -/
def combining17 : List (Nat × Nat) := [
  (0x1714, 9), (0x1715, 9), (0x1734, 9), (0x17d2, 9), (0x17dd, 230)]

/-- canonical combining classes other than 0, U+1800 to U+18FF -/
def combining18 : List (Nat × Nat) := [
  (0x18a9, 228)]

/-- canonical combining classes other than 0, U+1900 to U+19FF -/
def combining19 : List (Nat × Nat) := [
  (0x1939, 222), (0x193a, 230), (0x193b, 220)]

/-- canonical combining classes other than 0, U+1A00 to U+1AFF -/
def combining1a : List (Nat × Nat) := [
  (0x1a17, 230), (0x1a18, 220), (0x1a60, 9), (0x1a75, 230), (0x1a76, 230), (0x1a77, 230), (0x1a78, 230), (0x1a79, 230), (0x1a7a, 230), (0x1a7b, 230),
  (0x1a7c, 230), (0x1a7f, 220), (0x1ab0, 230), (0x1ab1, 230), (0x1ab2, 230), (0x1ab3, 230), (0x1ab4, 230), (0x1ab5, 220), (0x1ab6, 220),
  (0x1ab7, 220), (0x1ab8, 220), (0x1ab9, 220), (0x1aba, 220), (0x1abb, 230), (0x1abc, 230), (0x1abd, 220), (0x1abf, 220), (0x1ac0, 220),
  (0x1ac1, 230), (0x1ac2, 230), (0x1ac3, 220), (0x1ac4, 220), (0x1ac5, 230), (0x1ac6, 230), (0x1ac7, 230), (0x1ac8, 230), (0x1ac9, 230),
  (0x1aca, 220), (0x1acb, 230), (0x1acc, 230), (0x1acd, 230), (0x1ace, 230)]

/-- canonical combining classes other than 0, U+1B00 to U+1BFF -/
def combining1b : List (Nat × Nat) := [
  (0x1b34, 7), (0x1b44, 9), (0x1b6b, 230), (0x1b6c, 220), (0x1b6d, 230), (0x1b6e, 230), (0x1b6f, 230), (0x1b70, 230), (0x1b71, 230), (0x1b72, 230),
  (0x1b73, 230), (0x1baa, 9), (0x1bab, 9), (0x1be6, 7), (0x1bf2, 9), (0x1bf3, 9)]

/-- canonical combining classes other than 0, U+1C00 to U+1CFF -/
def combining1c : List (Nat × Nat) := [
  (0x1c37, 7), (0x1cd0, 230), (0x1cd1, 230), (0x1cd2, 230), (0x1cd4, 1), (0x1cd5, 220), (0x1cd6, 220), (0x1cd7, 220), (0x1cd8, 220), (0x1cd9, 220),
  (0x1cda, 230), (0x1cdb, 230), (0x1cdc, 220), (0x1cdd, 220), (0x1cde, 220), (0x1cdf, 220), (0x1ce0, 230), (0x1ce2, 1), (0x1ce3, 1), (0x1ce4, 1),
  (0x1ce5, 1), (0x1ce6, 1), (0x1ce7, 1), (0x1ce8, 1), (0x1ced, 220), (0x1cf4, 230), (0x1cf8, 230), (0x1cf9, 230)]

/-- canonical combining classes other than 0, U+1D00 to U+1DFF -/
def combining1d : List (Nat × Nat) := [
  (0x1dc0, 230), (0x1dc1, 230), (0x1dc2, 220), (0x1dc3, 230), (0x1dc4, 230), (0x1dc5, 230), (0x1dc6, 230), (0x1dc7, 230), (0x1dc8, 230),
  (0x1dc9, 230), (0x1dca, 220), (0x1dcb, 230), (0x1dcc, 230), (0x1dcd, 234), (0x1dce, 214), (0x1dcf, 220), (0x1dd0, 202), (0x1dd1, 230),
  (0x1dd2, 230), (0x1dd3, 230), (0x1dd4, 230), (0x1dd5, 230), (0x1dd6, 230), (0x1dd7, 230), (0x1dd8, 230), (0x1dd9, 230), (0x1dda, 230),
  (0x1ddb, 230), (0x1ddc, 230), (0x1ddd, 230), (0x1dde, 230), (0x1ddf, 230), (0x1de0, 230), (0x1de1, 230), (0x1de2, 230), (0x1de3, 230),
  (0x1de4, 230), (0x1de5, 230), (0x1de6, 230), (0x1de7, 230), (0x1de8, 230), (0x1de9, 230), (0x1dea, 230), (0x1deb, 230), (0x1dec, 230),
  (0x1ded, 230), (0x1dee, 230), (0x1def, 230), (0x1df0, 230), (0x1df1, 230), (0x1df2, 230), (0x1df3, 230), (0x1df4, 230), (0x1df5, 230),
  (0x1df6, 232), (0x1df7, 228), (0x1df8, 228), (0x1df9, 220), (0x1dfa, 218), (0x1dfb, 230), (0x1dfc, 233), (0x1dfd, 220), (0x1dfe, 230), (0x1dff, 220)]

/-- canonical combining classes other than 0, U+2000 to U+20FF -/
def combining20 : List (Nat × Nat) := [
  (0x20d0, 230), (0x20d1, 230), (0x20d2, 1), (0x20d3, 1), (0x20d4, 230), (0x20d5, 230), (0x20d6, 230), (0x20d7, 230), (0x20d8, 1), (0x20d9, 1),
  (0x20da, 1), (0x20db, 230), (0x20dc, 230), (0x20e1, 230), (0x20e5, 1), (0x20e6, 1), (0x20e7, 230), (0x20e8, 220), (0x20e9, 230), (0x20ea, 1),
  (0x20eb, 1), (0x20ec, 220), (0x20ed, 220), (0x20ee, 220), (0x20ef, 220), (0x20f0, 230)]

/-- canonical combining classes other than 0, U+2C00 to U+2CFF -/
def combining2c : List (Nat × Nat) := [
  (0x2cef, 230), (0x2cf0, 230), (0x2cf1, 230)]

/-- canonical combining classes other than 0, U+2D00 to U+2DFF -/
def combining2d : List (Nat × Nat) := [
  (0x2d7f, 9), (0x2de0, 230), (0x2de1, 230), (0x2de2, 230), (0x2de3, 230), (0x2de4, 230), (0x2de5, 230), (0x2de6, 230), (0x2de7, 230), (0x2de8, 230),
  (0x2de9, 230), (0x2dea, 230), (0x2deb, 230), (0x2dec, 230), (0x2ded, 230), (0x2dee, 230), (0x2def, 230), (0x2df0, 230), (0x2df1, 230),
  (0x2df2, 230), (0x2df3, 230), (0x2df4, 230), (0x2df5, 230), (0x2df6, 230), (0x2df7, 230), (0x2df8, 230), (0x2df9, 230), (0x2dfa, 230),
  (0x2dfb, 230), (0x2dfc, 230), (0x2dfd, 230), (0x2dfe, 230), (0x2dff, 230)]

/-- canonical combining classes other than 0, U+3000 to U+30FF -/
def combining30 : List (Nat × Nat) := [
  (0x302a, 218), (0x302b, 228), (0x302c, 232), (0x302d, 222), (0x302e, 224), (0x302f, 224), (0x3099, 8), (0x309a, 8)]

/-- canonical combining classes other than 0, U+A600 to U+A6FF -/
def combininga6 : List (Nat × Nat) := [
  (0xa66f, 230), (0xa674, 230), (0xa675, 230), (0xa676, 230), (0xa677, 230), (0xa678, 230), (0xa679, 230), (0xa67a, 230), (0xa67b, 230),
  (0xa67c, 230), (0xa67d, 230), (0xa69e, 230), (0xa69f, 230), (0xa6f0, 230), (0xa6f1, 230)]

/-- canonical combining classes other than 0, U+A800 to U+A8FF -/
def combininga8 : List (Nat × Nat) := [
  (0xa806, 9), (0xa82c, 9), (0xa8c4, 9), (0xa8e0, 230), (0xa8e1, 230), (0xa8e2, 230), (0xa8e3, 230), (0xa8e4, 230), (0xa8e5, 230), (0xa8e6, 230),
  (0xa8e7, 230), (0xa8e8, 230), (0xa8e9, 230), (0xa8ea, 230), (0xa8eb, 230), (0xa8ec, 230), (0xa8ed, 230), (0xa8ee, 230), (0xa8ef, 230),
  (0xa8f0, 230), (0xa8f1, 230)]

/-- canonical combining classes other than 0, U+A900 to U+A9FF -/
def combininga9 : List (Nat × Nat) := [
  (0xa92b, 220), (0xa92c, 220), (0xa92d, 220), (0xa953, 9), (0xa9b3, 7), (0xa9c0, 9)]

/-- canonical combining classes other than 0, U+AA00 to U+AAFF -/
def combiningaa : List (Nat × Nat) := [
  (0xaab0, 230), (0xaab2, 230), (0xaab3, 230), (0xaab4, 220), (0xaab7, 230), (0xaab8, 230), (0xaabe, 230), (0xaabf, 230), (0xaac1, 230), (0xaaf6, 9)]

/-- canonical combining classes other than 0, U+AB00 to U+ABFF -/
def combiningab : List (Nat × Nat) := [
  (0xabed, 9)]

/-- canonical combining classes other than 0, U+FB00 to U+FBFF -/
def combiningfb : List (Nat × Nat) := [
  (0xfb1e, 26)]

/-- canonical combining classes other than 0, U+FE00 to U+FEFF -/
def combiningfe : List (Nat × Nat) := [
  (0xfe20, 230), (0xfe21, 230), (0xfe22, 230), (0xfe23, 230), (0xfe24, 230), (0xfe25, 230), (0xfe26, 230), (0xfe27, 220), (0xfe28, 220),
  (0xfe29, 220), (0xfe2a, 220), (0xfe2b, 220), (0xfe2c, 220), (0xfe2d, 220), (0xfe2e, 230), (0xfe2f, 230)]

/-- canonical combining classes other than 0, U+10100 to U+101FF -/
def combining101 : List (Nat × Nat) := [
  (0x101fd, 220)]

/-- canonical combining classes other than 0, U+10200 to U+102FF -/
def combining102 : List (Nat × Nat) := [
  (0x102e0, 220)]

/-- canonical combining classes other than 0, U+10300 to U+103FF -/
def combining103 : List (Nat × Nat) := [
  (0x10376, 230), (0x10377, 230), (0x10378, 230), (0x10379, 230), (0x1037a, 230)]

/-- canonical combining classes other than 0, U+10A00 to U+10AFF -/
def combining10a : List (Nat × Nat) := [
  (0x10a0d, 220), (0x10a0f, 230), (0x10a38, 230), (0x10a39, 1), (0x10a3a, 220), (0x10a3f, 9), (0x10ae5, 230), (0x10ae6, 220)]

/-- canonical combining classes other than 0, U+10D00 to U+10DFF -/
def combining10d : List (Nat × Nat) := [
  (0x10d24, 230), (0x10d25, 230), (0x10d26, 230), (0x10d27, 230)]

/-- canonical combining classes other than 0, U+10E00 to U+10EFF -/
def combining10e : List (Nat × Nat) := [
  (0x10eab, 230), (0x10eac, 230)]

/-- canonical combining classes other than 0, U+10F00 to U+10FFF -/
def combining10f : List (Nat × Nat) := [
  (0x10f46, 220), (0x10f47, 220), (0x10f48, 230), (0x10f49, 230), (0x10f4a, 230), (0x10f4b, 220), (0x10f4c, 230), (0x10f4d, 220), (0x10f4e, 220),
  (0x10f4f, 220), (0x10f50, 220), (0x10f82, 230), (0x10f83, 220), (0x10f84, 230), (0x10f85, 220)]

/-- canonical combining classes other than 0, U+11000 to U+110FF -/
def combining110 : List (Nat × Nat) := [
  (0x11046, 9), (0x11070, 9), (0x1107f, 9), (0x110b9, 9), (0x110ba, 7)]

/-- canonical combining classes other than 0, U+11100 to U+111FF -/
def combining111 : List (Nat × Nat) := [
  (0x11100, 230), (0x11101, 230), (0x11102, 230), (0x11133, 9), (0x11134, 9), (0x11173, 7), (0x111c0, 9), (0x111ca, 7)]

/-- canonical combining classes other than 0, U+11200 to U+112FF -/
def combining112 : List (Nat × Nat) := [
  (0x11235, 9), (0x11236, 7), (0x112e9, 7), (0x112ea, 9)]

/-- canonical combining classes other than 0, U+11300 to U+113FF -/
def combining113 : List (Nat × Nat) := [
  (0x1133b, 7), (0x1133c, 7), (0x1134d, 9), (0x11366, 230), (0x11367, 230), (0x11368, 230), (0x11369, 230), (0x1136a, 230), (0x1136b, 230),
  (0x1136c, 230), (0x11370, 230), (0x11371, 230), (0x11372, 230), (0x11373, 230), (0x11374, 230)]

/-- canonical combining classes other than 0, U+11400 to U+114FF -/
def combining114 : List (Nat × Nat) := [
  (0x11442, 9), (0x11446, 7), (0x1145e, 230), (0x114c2, 9), (0x114c3, 7)]

/-- canonical combining classes other than 0, U+11500 to U+115FF -/
def combining115 : List (Nat × Nat) := [
  (0x115bf, 9), (0x115c0, 7)]

/-- canonical combining classes other than 0, U+11600 to U+116FF -/
def combining116 : List (Nat × Nat) := [
  (0x1163f, 9), (0x116b6, 9), (0x116b7, 7)]

/-- canonical combining classes other than 0, U+11700 to U+117FF -/
def combining117 : List (Nat × Nat) := [
  (0x1172b, 9)]

/-- canonical combining classes other than 0, U+11800 to U+118FF -/
def combining118 : List (Nat × Nat) := [
  (0x11839, 9), (0x1183a, 7)]

/-- canonical combining classes other than 0, U+11900 to U+119FF -/
def combining119 : List (Nat × Nat) := [
  (0x1193d, 9), (0x1193e, 9), (0x11943, 7), (0x119e0, 9)]

/-- canonical combining classes other than 0, U+11A00 to U+11AFF -/
def combining11a : List (Nat × Nat) := [
  (0x11a34, 9), (0x11a47, 9), (0x11a99, 9)]

/-- canonical combining classes other than 0, U+11C00 to U+11CFF -/
def combining11c : List (Nat × Nat) := [
  (0x11c3f, 9)]

/-- canonical combining classes other than 0, U+11D00 to U+11DFF -/
def combining11d : List (Nat × Nat) := [
  (0x11d42, 7), (0x11d44, 9), (0x11d45, 9), (0x11d97, 9)]

/-- canonical combining classes other than 0, U+16A00 to U+16AFF -/
def combining16a : List (Nat × Nat) := [
  (0x16af0, 1), (0x16af1, 1), (0x16af2, 1), (0x16af3, 1), (0x16af4, 1)]

/-- canonical combining classes other than 0, U+16B00 to U+16BFF -/
def combining16b : List (Nat × Nat) := [
  (0x16b30, 230), (0x16b31, 230), (0x16b32, 230), (0x16b33, 230), (0x16b34, 230), (0x16b35, 230), (0x16b36, 230)]

/-- canonical combining classes other than 0, U+16F00 to U+16FFF -/
def combining16f : List (Nat × Nat) := [
  (0x16ff0, 6), (0x16ff1, 6)]

/-- canonical combining classes other than 0, U+1BC00 to U+1BCFF -/
def combining1bc : List (Nat × Nat) := [
  (0x1bc9e, 1)]

/-- canonical combining classes other than 0, U+1D100 to U+1D1FF -/
def combining1d1 : List (Nat × Nat) := [
  (0x1d165, 216), (0x1d166, 216), (0x1d167, 1), (0x1d168, 1), (0x1d169, 1), (0x1d16d, 226), (0x1d16e, 216), (0x1d16f, 216), (0x1d170, 216),
  (0x1d171, 216), (0x1d172, 216), (0x1d17b, 220), (0x1d17c, 220), (0x1d17d, 220), (0x1d17e, 220), (0x1d17f, 220), (0x1d180, 220), (0x1d181, 220),
  (0x1d182, 220), (0x1d185, 230), (0x1d186, 230), (0x1d187, 230), (0x1d188, 230), (0x1d189, 230), (0x1d18a, 220), (0x1d18b, 220), (0x1d1aa, 230),
  (0x1d1ab, 230), (0x1d1ac, 230), (0x1d1ad, 230)]

/-- canonical combining classes other than 0, U+1D200 to U+1D2FF -/
def combining1d2 : List (Nat × Nat) := [
  (0x1d242, 230), (0x1d243, 230), (0x1d244, 230)]

/-- canonical combining classes other than 0, U+1E000 to U+1E0FF -/
def combining1e0 : List (Nat × Nat) := [
  (0x1e000, 230), (0x1e001, 230), (0x1e002, 230), (0x1e003, 230), (0x1e004, 230), (0x1e005, 230), (0x1e006, 230), (0x1e008, 230), (0x1e009, 230),
  (0x1e00a, 230), (0x1e00b, 230), (0x1e00c, 230), (0x1e00d, 230), (0x1e00e, 230), (0x1e00f, 230), (0x1e010, 230), (0x1e011, 230), (0x1e012, 230),
  (0x1e013, 230), (0x1e014, 230), (0x1e015, 230), (0x1e016, 230), (0x1e017, 230), (0x1e018, 230), (0x1e01b, 230), (0x1e01c, 230), (0x1e01d, 230),
  (0x1e01e, 230), (0x1e01f, 230), (0x1e020, 230), (0x1e021, 230), (0x1e023, 230), (0x1e024, 230), (0x1e026, 230), (0x1e027, 230), (0x1e028, 230),
  (0x1e029, 230), (0x1e02a, 230)]

/-- canonical combining classes other than 0, U+1E100 to U+1E1FF -/
def combining1e1 : List (Nat × Nat) := [
  (0x1e130, 230), (0x1e131, 230), (0x1e132, 230), (0x1e133, 230), (0x1e134, 230), (0x1e135, 230), (0x1e136, 230)]

/-- canonical combining classes other than 0, U+1E200 to U+1E2FF -/
def combining1e2 : List (Nat × Nat) := [
  (0x1e2ae, 230), (0x1e2ec, 230), (0x1e2ed, 230), (0x1e2ee, 230), (0x1e2ef, 230)]

/-- canonical combining classes other than 0, U+1E800 to U+1E8FF -/
def combining1e8 : List (Nat × Nat) := [
  (0x1e8d0, 220), (0x1e8d1, 220), (0x1e8d2, 220), (0x1e8d3, 220), (0x1e8d4, 220), (0x1e8d5, 220), (0x1e8d6, 220)]

/-- canonical combining classes other than 0, U+1E900 to U+1E9FF -/
def combining1e9 : List (Nat × Nat) := [
  (0x1e944, 230), (0x1e945, 230), (0x1e946, 230), (0x1e947, 230), (0x1e948, 230), (0x1e949, 230), (0x1e94a, 7)]

/-- canonical combining classes other than 0 -/
def combiningPages : List (Nat × List (Nat × Nat)) := [
  (0x3, combining3), (0x4, combining4), (0x5, combining5), (0x6, combining6), (0x7, combining7), (0x8, combining8), (0x9, combining9),
  (0xa, combininga), (0xb, combiningb), (0xc, combiningc), (0xd, combiningd), (0xe, combininge), (0xf, combiningf), (0x10, combining10),
  (0x13, combining13), (0x17, combining17), (0x18, combining18), (0x19, combining19), (0x1a, combining1a), (0x1b, combining1b), (0x1c, combining1c),
  (0x1d, combining1d), (0x20, combining20), (0x2c, combining2c), (0x2d, combining2d), (0x30, combining30), (0xa6, combininga6), (0xa8, combininga8),
  (0xa9, combininga9), (0xaa, combiningaa), (0xab, combiningab), (0xfb, combiningfb), (0xfe, combiningfe), (0x101, combining101),
  (0x102, combining102), (0x103, combining103), (0x10a, combining10a), (0x10d, combining10d), (0x10e, combining10e), (0x10f, combining10f),
  (0x110, combining110), (0x111, combining111), (0x112, combining112), (0x113, combining113), (0x114, combining114), (0x115, combining115),
  (0x116, combining116), (0x117, combining117), (0x118, combining118), (0x119, combining119), (0x11a, combining11a), (0x11c, combining11c),
  (0x11d, combining11d), (0x16a, combining16a), (0x16b, combining16b), (0x16f, combining16f), (0x1bc, combining1bc), (0x1d1, combining1d1),
  (0x1d2, combining1d2), (0x1e0, combining1e0), (0x1e1, combining1e1), (0x1e2, combining1e2), (0x1e8, combining1e8), (0x1e9, combining1e9)]

/-- the value of a code point in a table -/
def find {β : Type} (pages : List (Nat × List (Nat × β))) (c : Nat) : Option β :=
  match pages.lookup (c / 256) with
  | some page => page.lookup c
  | none => none

/-- Hangul syllables -/
def isHangul (c : Nat) : Bool := decide (0xac00 ≤ c ∧ c ≤ 0xd7a3)

/-- decomposition of a Hangul syllable, The Unicode Standard 3.12 -/
def hangul (c : Nat) : List Nat :=
  let s := c - 0xac00
  let l := 0x1100 + s / 588
  let v := 0x1161 + s % 588 / 28
  if s % 28 = 0 then [l, v] else [l, v, 0x11a7 + s % 28]

/-- full canonical decomposition of a code point -/
def decomposition (c : Nat) : List Nat := if isHangul c then hangul c else (find decompositionPages c).getD [c]

/-- full case folding of a code point -/
def caseFolding (c : Nat) : List Nat := (find caseFoldingPages c).getD [c]

/-- canonical combining class -/
def combining (c : Nat) : Nat := (find combiningPages c).getD 0

/-- inserting a code point before a string in canonical order -/
def insertMark (c : Nat) : List Nat → List Nat
  | [] => [c]
  | d :: ds => if 0 < combining d ∧ combining d < combining c then d :: insertMark c ds else c :: d :: ds

/-- canonical ordering: runs of characters with a combining class other than 0 are sorted by it, keeping the order of those with the same class -/
def canonicalOrder (s : List Nat) : List Nat := s.foldr insertMark []

/-- Normalization Form D, The Unicode Standard 3.11 D118 -/
def nfd (s : List Nat) : List Nat := canonicalOrder (s.flatMap decomposition)

/-- the form of a string for a canonical caseless match, The Unicode Standard 3.13 D145 -/
def caseless (s : List Nat) : List Nat := nfd ((nfd s).flatMap caseFolding)

end Verif.Spec.Unicode
