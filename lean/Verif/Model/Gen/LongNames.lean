/- Generated by tools/gen_tables.py from /repo. Do not edit.
Paths are relative to /repo/crates/wolfram-parser/src. -/
import Verif.Model.Reader
import Verif.Model.Gen.TokenKind

namespace CodeParser

set_option maxRecDepth 100000

/-- `LONGNAME_TO_CODEPOINT_MAP`, generated/long_names_registration.rs:1136-2239. -/
def longNameTable : List (List Char × CP) := [
  (['A', 'A', 'c', 'u', 't', 'e'], .char 0xe1),
  (['A', 'B', 'a', 'r'], .char 0x101),
  (['A', 'C', 'u', 'p'], .char 0x103),
  (['A', 'D', 'o', 'u', 'b', 'l', 'e', 'D', 'o', 't'], .char 0xe4),
  (['A', 'E'], .char 0xe6),
  (['A', 'G', 'r', 'a', 'v', 'e'], .char 0xe0),
  (['A', 'H', 'a', 't'], .char 0xe2),
  (['A', 'R', 'i', 'n', 'g'], .char 0xe5),
  (['A', 'T', 'i', 'l', 'd', 'e'], .char 0xe3),
  (['A', 'k', 'u', 'z'], .char 0xf728),
  (['A', 'l', 'e', 'p', 'h'], .char 0x2135),
  (['A', 'l', 'i', 'a', 's', 'D', 'e', 'l', 'i', 'm', 'i', 't', 'e', 'r'], .char 0xf764),
  (['A', 'l', 'i', 'a', 's', 'I', 'n', 'd', 'i', 'c', 'a', 't', 'o', 'r'], .char 0xf768),
  (['A', 'l', 'i', 'g', 'n', 'm', 'e', 'n', 't', 'M', 'a', 'r', 'k', 'e', 'r'], .char 0xf760),
  (['A', 'l', 'p', 'h', 'a'], .char 0x3b1),
  (['A', 'l', 't', 'K', 'e', 'y'], .char 0xf7d1),
  (['A', 'n', 'd'], .char 0x2227),
  (['A', 'n', 'd', 'y'], .char 0xf729),
  (['A', 'n', 'g', 'l', 'e'], .char 0x2220),
  (['A', 'n', 'g', 's', 't', 'r', 'o', 'm'], .char 0x212b),
  (['A', 'p', 'p', 'l', 'i', 'c', 'a', 't', 'i', 'o', 'n'], .char 0xf530),
  (['A', 'q', 'u', 'a', 'r', 'i', 'u', 's', 'S', 'i', 'g', 'n'], .char 0x2652),
  (['A', 'r', 'i', 'e', 's', 'S', 'i', 'g', 'n'], .char 0x2648),
  (['A', 's', 'c', 'e', 'n', 'd', 'i', 'n', 'g', 'E', 'l', 'l', 'i', 'p', 's', 'i', 's'], .char 0x22f0),
  (['A', 'u', 't', 'o', 'L', 'e', 'f', 't', 'M', 'a', 't', 'c', 'h'], .char 0xf3a8),
  (['A', 'u', 't', 'o', 'O', 'p', 'e', 'r', 'a', 'n', 'd'], .char 0xf3ae),
  (['A', 'u', 't', 'o', 'P', 'l', 'a', 'c', 'e', 'h', 'o', 'l', 'd', 'e', 'r'], .char 0xf3a4),
  (['A', 'u', 't', 'o', 'R', 'i', 'g', 'h', 't', 'M', 'a', 't', 'c', 'h'], .char 0xf3a9),
  (['A', 'u', 't', 'o', 'S', 'p', 'a', 'c', 'e'], .char 0xf3ad),
  (['B', 'a', 'c', 'k', 's', 'l', 'a', 's', 'h'], .char 0x2216),
  (['B', 'e', 'a', 'm', 'e', 'd', 'E', 'i', 'g', 'h', 't', 'h', 'N', 'o', 't', 'e'], .char 0x266b),
  (['B', 'e', 'a', 'm', 'e', 'd', 'S', 'i', 'x', 't', 'e', 'e', 'n', 't', 'h', 'N', 'o', 't', 'e'], .char 0x266c),
  (['B', 'e', 'c', 'a', 'u', 's', 'e'], .char 0x2235),
  (['B', 'e', 't'], .char 0x2136),
  (['B', 'e', 't', 'a'], .char 0x3b2),
  (['B', 'l', 'a', 'c', 'k', 'B', 'i', 's', 'h', 'o', 'p'], .char 0x265d),
  (['B', 'l', 'a', 'c', 'k', 'K', 'i', 'n', 'g'], .char 0x265a),
  (['B', 'l', 'a', 'c', 'k', 'K', 'n', 'i', 'g', 'h', 't'], .char 0x265e),
  (['B', 'l', 'a', 'c', 'k', 'P', 'a', 'w', 'n'], .char 0x265f),
  (['B', 'l', 'a', 'c', 'k', 'Q', 'u', 'e', 'e', 'n'], .char 0x265b),
  (['B', 'l', 'a', 'c', 'k', 'R', 'o', 'o', 'k'], .char 0x265c),
  (['B', 'r', 'e', 'v', 'e'], .char 0x2d8),
  (['B', 'u', 'l', 'l', 'e', 't'], .char 0x2022),
  (['C', 'A', 'c', 'u', 't', 'e'], .char 0x107),
  (['C', 'C', 'e', 'd', 'i', 'l', 'l', 'a'], .char 0xe7),
  (['C', 'H', 'a', 'c', 'e', 'k'], .char 0x10d),
  (['C', 'O', 'M', 'P', 'A', 'T', 'I', 'B', 'I', 'L', 'I', 'T', 'Y', 'K', 'a', 'n', 'j', 'i', 'S', 'p', 'a', 'c', 'e'], .char 0x3000),
  (['C', 'O', 'M', 'P', 'A', 'T', 'I', 'B', 'I', 'L', 'I', 'T', 'Y', 'N', 'o', 'B', 'r', 'e', 'a', 'k'], .char 0xf3a2),
  (['C', 'a', 'n', 'c', 'e', 'r', 'S', 'i', 'g', 'n'], .char 0x264b),
  (['C', 'a', 'p'], .char 0x2322),
  (['C', 'a', 'p', 'i', 't', 'a', 'l', 'A', 'A', 'c', 'u', 't', 'e'], .char 0xc1),
  (['C', 'a', 'p', 'i', 't', 'a', 'l', 'A', 'B', 'a', 'r'], .char 0x100),
  (['C', 'a', 'p', 'i', 't', 'a', 'l', 'A', 'C', 'u', 'p'], .char 0x102),
  (['C', 'a', 'p', 'i', 't', 'a', 'l', 'A', 'D', 'o', 'u', 'b', 'l', 'e', 'D', 'o', 't'], .char 0xc4),
  (['C', 'a', 'p', 'i', 't', 'a', 'l', 'A', 'E'], .char 0xc6),
  (['C', 'a', 'p', 'i', 't', 'a', 'l', 'A', 'G', 'r', 'a', 'v', 'e'], .char 0xc0),
  (['C', 'a', 'p', 'i', 't', 'a', 'l', 'A', 'H', 'a', 't'], .char 0xc2),
  (['C', 'a', 'p', 'i', 't', 'a', 'l', 'A', 'R', 'i', 'n', 'g'], .char 0xc5),
  (['C', 'a', 'p', 'i', 't', 'a', 'l', 'A', 'T', 'i', 'l', 'd', 'e'], .char 0xc3),
  (['C', 'a', 'p', 'i', 't', 'a', 'l', 'A', 'l', 'p', 'h', 'a'], .char 0x391),
  (['C', 'a', 'p', 'i', 't', 'a', 'l', 'B', 'e', 't', 'a'], .char 0x392),
  (['C', 'a', 'p', 'i', 't', 'a', 'l', 'C', 'A', 'c', 'u', 't', 'e'], .char 0x106),
  (['C', 'a', 'p', 'i', 't', 'a', 'l', 'C', 'C', 'e', 'd', 'i', 'l', 'l', 'a'], .char 0xc7),
  (['C', 'a', 'p', 'i', 't', 'a', 'l', 'C', 'H', 'a', 'c', 'e', 'k'], .char 0x10c),
  (['C', 'a', 'p', 'i', 't', 'a', 'l', 'C', 'h', 'i'], .char 0x3a7),
  (['C', 'a', 'p', 'i', 't', 'a', 'l', 'D', 'H', 'a', 'c', 'e', 'k'], .char 0x10e),
  (['C', 'a', 'p', 'i', 't', 'a', 'l', 'D', 'e', 'l', 't', 'a'], .char 0x394),
  (['C', 'a', 'p', 'i', 't', 'a', 'l', 'D', 'i', 'f', 'f', 'e', 'r', 'e', 'n', 't', 'i', 'a', 'l', 'D'], .char 0xf74b),
  (['C', 'a', 'p', 'i', 't', 'a', 'l', 'D', 'i', 'g', 'a', 'm', 'm', 'a'], .char 0x3dc),
  (['C', 'a', 'p', 'i', 't', 'a', 'l', 'E', 'A', 'c', 'u', 't', 'e'], .char 0xc9),
  (['C', 'a', 'p', 'i', 't', 'a', 'l', 'E', 'B', 'a', 'r'], .char 0x112),
  (['C', 'a', 'p', 'i', 't', 'a', 'l', 'E', 'C', 'u', 'p'], .char 0x114),
  (['C', 'a', 'p', 'i', 't', 'a', 'l', 'E', 'D', 'o', 'u', 'b', 'l', 'e', 'D', 'o', 't'], .char 0xcb),
  (['C', 'a', 'p', 'i', 't', 'a', 'l', 'E', 'G', 'r', 'a', 'v', 'e'], .char 0xc8),
  (['C', 'a', 'p', 'i', 't', 'a', 'l', 'E', 'H', 'a', 'c', 'e', 'k'], .char 0x11a),
  (['C', 'a', 'p', 'i', 't', 'a', 'l', 'E', 'H', 'a', 't'], .char 0xca),
  (['C', 'a', 'p', 'i', 't', 'a', 'l', 'E', 'p', 's', 'i', 'l', 'o', 'n'], .char 0x395),
  (['C', 'a', 'p', 'i', 't', 'a', 'l', 'E', 't', 'a'], .char 0x397),
  (['C', 'a', 'p', 'i', 't', 'a', 'l', 'E', 't', 'h'], .char 0xd0),
  (['C', 'a', 'p', 'i', 't', 'a', 'l', 'G', 'a', 'm', 'm', 'a'], .char 0x393),
  (['C', 'a', 'p', 'i', 't', 'a', 'l', 'I', 'A', 'c', 'u', 't', 'e'], .char 0xcd),
  (['C', 'a', 'p', 'i', 't', 'a', 'l', 'I', 'C', 'u', 'p'], .char 0x12c),
  (['C', 'a', 'p', 'i', 't', 'a', 'l', 'I', 'D', 'o', 'u', 'b', 'l', 'e', 'D', 'o', 't'], .char 0xcf),
  (['C', 'a', 'p', 'i', 't', 'a', 'l', 'I', 'G', 'r', 'a', 'v', 'e'], .char 0xcc),
  (['C', 'a', 'p', 'i', 't', 'a', 'l', 'I', 'H', 'a', 't'], .char 0xce),
  (['C', 'a', 'p', 'i', 't', 'a', 'l', 'I', 'o', 't', 'a'], .char 0x399),
  (['C', 'a', 'p', 'i', 't', 'a', 'l', 'K', 'a', 'p', 'p', 'a'], .char 0x39a),
  (['C', 'a', 'p', 'i', 't', 'a', 'l', 'K', 'o', 'p', 'p', 'a'], .char 0x3de),
  (['C', 'a', 'p', 'i', 't', 'a', 'l', 'L', 'S', 'l', 'a', 's', 'h'], .char 0x141),
  (['C', 'a', 'p', 'i', 't', 'a', 'l', 'L', 'a', 'm', 'b', 'd', 'a'], .char 0x39b),
  (['C', 'a', 'p', 'i', 't', 'a', 'l', 'M', 'u'], .char 0x39c),
  (['C', 'a', 'p', 'i', 't', 'a', 'l', 'N', 'H', 'a', 'c', 'e', 'k'], .char 0x147),
  (['C', 'a', 'p', 'i', 't', 'a', 'l', 'N', 'T', 'i', 'l', 'd', 'e'], .char 0xd1),
  (['C', 'a', 'p', 'i', 't', 'a', 'l', 'N', 'u'], .char 0x39d),
  (['C', 'a', 'p', 'i', 't', 'a', 'l', 'O', 'A', 'c', 'u', 't', 'e'], .char 0xd3),
  (['C', 'a', 'p', 'i', 't', 'a', 'l', 'O', 'D', 'o', 'u', 'b', 'l', 'e', 'A', 'c', 'u', 't', 'e'], .char 0x150),
  (['C', 'a', 'p', 'i', 't', 'a', 'l', 'O', 'D', 'o', 'u', 'b', 'l', 'e', 'D', 'o', 't'], .char 0xd6),
  (['C', 'a', 'p', 'i', 't', 'a', 'l', 'O', 'E'], .char 0x152),
  (['C', 'a', 'p', 'i', 't', 'a', 'l', 'O', 'G', 'r', 'a', 'v', 'e'], .char 0xd2),
  (['C', 'a', 'p', 'i', 't', 'a', 'l', 'O', 'H', 'a', 't'], .char 0xd4),
  (['C', 'a', 'p', 'i', 't', 'a', 'l', 'O', 'S', 'l', 'a', 's', 'h'], .char 0xd8),
  (['C', 'a', 'p', 'i', 't', 'a', 'l', 'O', 'T', 'i', 'l', 'd', 'e'], .char 0xd5),
  (['C', 'a', 'p', 'i', 't', 'a', 'l', 'O', 'm', 'e', 'g', 'a'], .char 0x3a9),
  (['C', 'a', 'p', 'i', 't', 'a', 'l', 'O', 'm', 'i', 'c', 'r', 'o', 'n'], .char 0x39f),
  (['C', 'a', 'p', 'i', 't', 'a', 'l', 'P', 'h', 'i'], .char 0x3a6),
  (['C', 'a', 'p', 'i', 't', 'a', 'l', 'P', 'i'], .char 0x3a0),
  (['C', 'a', 'p', 'i', 't', 'a', 'l', 'P', 's', 'i'], .char 0x3a8),
  (['C', 'a', 'p', 'i', 't', 'a', 'l', 'R', 'H', 'a', 'c', 'e', 'k'], .char 0x158),
  (['C', 'a', 'p', 'i', 't', 'a', 'l', 'R', 'h', 'o'], .char 0x3a1),
  (['C', 'a', 'p', 'i', 't', 'a', 'l', 'S', 'H', 'a', 'c', 'e', 'k'], .char 0x160),
  (['C', 'a', 'p', 'i', 't', 'a', 'l', 'S', 'a', 'm', 'p', 'i'], .char 0x3e0),
  (['C', 'a', 'p', 'i', 't', 'a', 'l', 'S', 'i', 'g', 'm', 'a'], .char 0x3a3),
  (['C', 'a', 'p', 'i', 't', 'a', 'l', 'S', 't', 'i', 'g', 'm', 'a'], .char 0x3da),
  (['C', 'a', 'p', 'i', 't', 'a', 'l', 'T', 'H', 'a', 'c', 'e', 'k'], .char 0x164),
  (['C', 'a', 'p', 'i', 't', 'a', 'l', 'T', 'a', 'u'], .char 0x3a4),
  (['C', 'a', 'p', 'i', 't', 'a', 'l', 'T', 'h', 'e', 't', 'a'], .char 0x398),
  (['C', 'a', 'p', 'i', 't', 'a', 'l', 'T', 'h', 'o', 'r', 'n'], .char 0xde),
  (['C', 'a', 'p', 'i', 't', 'a', 'l', 'U', 'A', 'c', 'u', 't', 'e'], .char 0xda),
  (['C', 'a', 'p', 'i', 't', 'a', 'l', 'U', 'D', 'o', 'u', 'b', 'l', 'e', 'A', 'c', 'u', 't', 'e'], .char 0x170),
  (['C', 'a', 'p', 'i', 't', 'a', 'l', 'U', 'D', 'o', 'u', 'b', 'l', 'e', 'D', 'o', 't'], .char 0xdc),
  (['C', 'a', 'p', 'i', 't', 'a', 'l', 'U', 'G', 'r', 'a', 'v', 'e'], .char 0xd9),
  (['C', 'a', 'p', 'i', 't', 'a', 'l', 'U', 'H', 'a', 't'], .char 0xdb),
  (['C', 'a', 'p', 'i', 't', 'a', 'l', 'U', 'R', 'i', 'n', 'g'], .char 0x16e),
  (['C', 'a', 'p', 'i', 't', 'a', 'l', 'U', 'p', 's', 'i', 'l', 'o', 'n'], .char 0x3a5),
  (['C', 'a', 'p', 'i', 't', 'a', 'l', 'X', 'i'], .char 0x39e),
  (['C', 'a', 'p', 'i', 't', 'a', 'l', 'Y', 'A', 'c', 'u', 't', 'e'], .char 0xdd),
  (['C', 'a', 'p', 'i', 't', 'a', 'l', 'Z', 'H', 'a', 'c', 'e', 'k'], .char 0x17d),
  (['C', 'a', 'p', 'i', 't', 'a', 'l', 'Z', 'e', 't', 'a'], .char 0x396),
  (['C', 'a', 'p', 'r', 'i', 'c', 'o', 'r', 'n', 'S', 'i', 'g', 'n'], .char 0x2651),
  (['C', 'e', 'd', 'i', 'l', 'l', 'a'], .char 0xb8),
  (['C', 'e', 'n', 't'], .char 0xa2),
  (['C', 'e', 'n', 't', 'e', 'r', 'D', 'o', 't'], .char 0xb7),
  (['C', 'e', 'n', 't', 'e', 'r', 'E', 'l', 'l', 'i', 'p', 's', 'i', 's'], .char 0x22ef),
  (['C', 'h', 'e', 'c', 'k', 'e', 'd', 'B', 'o', 'x'], .char 0x2612),
  (['C', 'h', 'e', 'c', 'k', 'm', 'a', 'r', 'k'], .char 0x2713),
  (['C', 'h', 'e', 'c', 'k', 'm', 'a', 'r', 'k', 'e', 'd', 'B', 'o', 'x'], .char 0x2611),
  (['C', 'h', 'i'], .char 0x3c7),
  (['C', 'i', 'r', 'c', 'l', 'e', 'D', 'o', 't'], .char 0x2299),
  (['C', 'i', 'r', 'c', 'l', 'e', 'M', 'i', 'n', 'u', 's'], .char 0x2296),
  (['C', 'i', 'r', 'c', 'l', 'e', 'P', 'l', 'u', 's'], .char 0x2295),
  (['C', 'i', 'r', 'c', 'l', 'e', 'T', 'i', 'm', 'e', 's'], .char 0x2297),
  (['C', 'l', 'o', 'c', 'k', 'w', 'i', 's', 'e', 'C', 'o', 'n', 't', 'o', 'u', 'r', 'I', 'n', 't', 'e', 'g', 'r', 'a', 'l'], .char 0x2232),
  (['C', 'l', 'o', 's', 'e', 'C', 'u', 'r', 'l', 'y', 'D', 'o', 'u', 'b', 'l', 'e', 'Q', 'u', 'o', 't', 'e'], .char 0x201d),
  (['C', 'l', 'o', 's', 'e', 'C', 'u', 'r', 'l', 'y', 'Q', 'u', 'o', 't', 'e'], .char 0x2019),
  (['C', 'l', 'o', 'v', 'e', 'r', 'L', 'e', 'a', 'f'], .char 0x2318),
  (['C', 'l', 'u', 'b', 'S', 'u', 'i', 't'], .char 0x2663),
  (['C', 'o', 'l', 'o', 'n'], .char 0x2236),
  (['C', 'o', 'm', 'm', 'a', 'n', 'd', 'K', 'e', 'y'], .char 0xf76a),
  (['C', 'o', 'n', 'd', 'i', 't', 'i', 'o', 'n', 'e', 'd'], .char 0xf3d3),
  (['C', 'o', 'n', 'g', 'r', 'u', 'e', 'n', 't'], .char 0x2261),
  (['C', 'o', 'n', 'j', 'u', 'g', 'a', 't', 'e'], .char 0xf3c8),
  (['C', 'o', 'n', 'j', 'u', 'g', 'a', 't', 'e', 'T', 'r', 'a', 'n', 's', 'p', 'o', 's', 'e'], .char 0xf3c9),
  (['C', 'o', 'n', 's', 't', 'a', 'n', 't', 'C'], .char 0xf7da),
  (['C', 'o', 'n', 't', 'i', 'n', 'u', 'a', 't', 'i', 'o', 'n'], .char 0xf3b1),
  (['C', 'o', 'n', 't', 'i', 'n', 'u', 'e', 'd', 'F', 'r', 'a', 'c', 't', 'i', 'o', 'n', 'K'], .char 0xf3d9),
  (['C', 'o', 'n', 't', 'o', 'u', 'r', 'I', 'n', 't', 'e', 'g', 'r', 'a', 'l'], .char 0x222e),
  (['C', 'o', 'n', 't', 'r', 'o', 'l', 'K', 'e', 'y'], .char 0xf763),
  (['C', 'o', 'p', 'r', 'o', 'd', 'u', 'c', 't'], .char 0x2210),
  (['C', 'o', 'p', 'y', 'r', 'i', 'g', 'h', 't'], .char 0xa9),
  (['C', 'o', 'u', 'n', 't', 'e', 'r', 'C', 'l', 'o', 'c', 'k', 'w', 'i', 's', 'e', 'C', 'o', 'n', 't', 'o', 'u', 'r', 'I', 'n', 't', 'e', 'g', 'r', 'a', 'l'], .char 0x2233),
  (['C', 'r', 'o', 's', 's'], .char 0xf4a0),
  (['C', 'u', 'b', 'e', 'R', 'o', 'o', 't'], .char 0x221b),
  (['C', 'u', 'p'], .char 0x2323),
  (['C', 'u', 'p', 'C', 'a', 'p'], .char 0x224d),
  (['C', 'u', 'r', 'l', 'y', 'C', 'a', 'p', 'i', 't', 'a', 'l', 'U', 'p', 's', 'i', 'l', 'o', 'n'], .char 0x3d2),
  (['C', 'u', 'r', 'l', 'y', 'E', 'p', 's', 'i', 'l', 'o', 'n'], .char 0x3b5),
  (['C', 'u', 'r', 'l', 'y', 'K', 'a', 'p', 'p', 'a'], .char 0x3f0),
  (['C', 'u', 'r', 'l', 'y', 'P', 'h', 'i'], .char 0x3c6),
  (['C', 'u', 'r', 'l', 'y', 'P', 'i'], .char 0x3d6),
  (['C', 'u', 'r', 'l', 'y', 'R', 'h', 'o'], .char 0x3f1),
  (['C', 'u', 'r', 'l', 'y', 'T', 'h', 'e', 't', 'a'], .char 0x3d1),
  (['C', 'u', 'r', 'r', 'e', 'n', 'c', 'y'], .char 0xa4),
  (['D', 'H', 'a', 'c', 'e', 'k'], .char 0x10f),
  (['D', 'a', 'g', 'g', 'e', 'r'], .char 0x2020),
  (['D', 'a', 'l', 'e', 't'], .char 0x2138),
  (['D', 'a', 's', 'h'], .char 0x2013),
  (['D', 'e', 'g', 'r', 'e', 'e'], .char 0xb0),
  (['D', 'e', 'l'], .char 0x2207),
  (['D', 'e', 'l', 'e', 't', 'e', 'K', 'e', 'y'], .char 0xf7d0),
  (['D', 'e', 'l', 't', 'a'], .char 0x3b4),
  (['D', 'e', 's', 'c', 'e', 'n', 'd', 'i', 'n', 'g', 'E', 'l', 'l', 'i', 'p', 's', 'i', 's'], .char 0x22f1),
  (['D', 'i', 'a', 'm', 'e', 't', 'e', 'r'], .char 0x2300),
  (['D', 'i', 'a', 'm', 'o', 'n', 'd'], .char 0x22c4),
  (['D', 'i', 'a', 'm', 'o', 'n', 'd', 'S', 'u', 'i', 't'], .char 0x2662),
  (['D', 'i', 'f', 'f', 'e', 'r', 'e', 'n', 'c', 'e', 'D', 'e', 'l', 't', 'a'], .char 0xf4a4),
  (['D', 'i', 'f', 'f', 'e', 'r', 'e', 'n', 't', 'i', 'a', 'l', 'D'], .char 0xf74c),
  (['D', 'i', 'g', 'a', 'm', 'm', 'a'], .char 0x3dd),
  (['D', 'i', 'r', 'e', 'c', 't', 'e', 'd', 'E', 'd', 'g', 'e'], .char 0xf3d5),
  (['D', 'i', 's', 'c', 'r', 'e', 't', 'e', 'R', 'a', 't', 'i', 'o'], .char 0xf4a5),
  (['D', 'i', 's', 'c', 'r', 'e', 't', 'e', 'S', 'h', 'i', 'f', 't'], .char 0xf4a3),
  (['D', 'i', 's', 'c', 'r', 'e', 't', 'i', 'o', 'n', 'a', 'r', 'y', 'H', 'y', 'p', 'h', 'e', 'n'], .char 0xad),
  (['D', 'i', 's', 'c', 'r', 'e', 't', 'i', 'o', 'n', 'a', 'r', 'y', 'L', 'i', 'n', 'e', 'S', 'e', 'p', 'a', 'r', 'a', 't', 'o', 'r'], .char 0xf76e),
  (['D', 'i', 's', 'c', 'r', 'e', 't', 'i', 'o', 'n', 'a', 'r', 'y', 'P', 'a', 'g', 'e', 'B', 'r', 'e', 'a', 'k', 'A', 'b', 'o', 'v', 'e'], .char 0xf3bf),
  (['D', 'i', 's', 'c', 'r', 'e', 't', 'i', 'o', 'n', 'a', 'r', 'y', 'P', 'a', 'g', 'e', 'B', 'r', 'e', 'a', 'k', 'B', 'e', 'l', 'o', 'w'], .char 0xf3c6),
  (['D', 'i', 's', 'c', 'r', 'e', 't', 'i', 'o', 'n', 'a', 'r', 'y', 'P', 'a', 'r', 'a', 'g', 'r', 'a', 'p', 'h', 'S', 'e', 'p', 'a', 'r', 'a', 't', 'o', 'r'], .char 0xf76f),
  (['D', 'i', 's', 't', 'r', 'i', 'b', 'u', 't', 'e', 'd'], .char 0xf3d2),
  (['D', 'i', 'v', 'i', 'd', 'e'], .char 0xf7),
  (['D', 'i', 'v', 'i', 'd', 'e', 's'], .char 0x2223),
  (['D', 'i', 'v', 'i', 's', 'i', 'o', 'n', 'S', 'l', 'a', 's', 'h'], .char 0x2215),
  (['D', 'o', 't', 'E', 'q', 'u', 'a', 'l'], .char 0x2250),
  (['D', 'o', 't', 'l', 'e', 's', 's', 'I'], .char 0x131),
  (['D', 'o', 't', 'l', 'e', 's', 's', 'J'], .char 0xf700),
  (['D', 'o', 't', 't', 'e', 'd', 'S', 'q', 'u', 'a', 'r', 'e'], .char 0xf751),
  (['D', 'o', 'u', 'b', 'l', 'e', 'C', 'o', 'n', 't', 'o', 'u', 'r', 'I', 'n', 't', 'e', 'g', 'r', 'a', 'l'], .char 0x222f),
  (['D', 'o', 'u', 'b', 'l', 'e', 'D', 'a', 'g', 'g', 'e', 'r'], .char 0x2021),
  (['D', 'o', 'u', 'b', 'l', 'e', 'D', 'o', 't'], .char 0xa8),
  (['D', 'o', 'u', 'b', 'l', 'e', 'D', 'o', 'w', 'n', 'A', 'r', 'r', 'o', 'w'], .char 0x21d3),
  (['D', 'o', 'u', 'b', 'l', 'e', 'L', 'e', 'f', 't', 'A', 'r', 'r', 'o', 'w'], .char 0x21d0),
  (['D', 'o', 'u', 'b', 'l', 'e', 'L', 'e', 'f', 't', 'R', 'i', 'g', 'h', 't', 'A', 'r', 'r', 'o', 'w'], .char 0x21d4),
  (['D', 'o', 'u', 'b', 'l', 'e', 'L', 'e', 'f', 't', 'T', 'e', 'e'], .char 0x2ae4),
  (['D', 'o', 'u', 'b', 'l', 'e', 'L', 'o', 'n', 'g', 'L', 'e', 'f', 't', 'A', 'r', 'r', 'o', 'w'], .char 0x27f8),
  (['D', 'o', 'u', 'b', 'l', 'e', 'L', 'o', 'n', 'g', 'L', 'e', 'f', 't', 'R', 'i', 'g', 'h', 't', 'A', 'r', 'r', 'o', 'w'], .char 0x27fa),
  (['D', 'o', 'u', 'b', 'l', 'e', 'L', 'o', 'n', 'g', 'R', 'i', 'g', 'h', 't', 'A', 'r', 'r', 'o', 'w'], .char 0x27f9),
  (['D', 'o', 'u', 'b', 'l', 'e', 'P', 'r', 'i', 'm', 'e'], .char 0x2033),
  (['D', 'o', 'u', 'b', 'l', 'e', 'R', 'i', 'g', 'h', 't', 'A', 'r', 'r', 'o', 'w'], .char 0x21d2),
  (['D', 'o', 'u', 'b', 'l', 'e', 'R', 'i', 'g', 'h', 't', 'T', 'e', 'e'], .char 0x22a8),
  (['D', 'o', 'u', 'b', 'l', 'e', 'S', 't', 'r', 'u', 'c', 'k', 'A'], .char 0xf6e6),
  (['D', 'o', 'u', 'b', 'l', 'e', 'S', 't', 'r', 'u', 'c', 'k', 'B'], .char 0xf6e7),
  (['D', 'o', 'u', 'b', 'l', 'e', 'S', 't', 'r', 'u', 'c', 'k', 'C'], .char 0xf6e8),
  (['D', 'o', 'u', 'b', 'l', 'e', 'S', 't', 'r', 'u', 'c', 'k', 'C', 'a', 'p', 'i', 't', 'a', 'l', 'A'], .char 0xf7a4),
  (['D', 'o', 'u', 'b', 'l', 'e', 'S', 't', 'r', 'u', 'c', 'k', 'C', 'a', 'p', 'i', 't', 'a', 'l', 'B'], .char 0xf7a5),
  (['D', 'o', 'u', 'b', 'l', 'e', 'S', 't', 'r', 'u', 'c', 'k', 'C', 'a', 'p', 'i', 't', 'a', 'l', 'C'], .char 0xf7a6),
  (['D', 'o', 'u', 'b', 'l', 'e', 'S', 't', 'r', 'u', 'c', 'k', 'C', 'a', 'p', 'i', 't', 'a', 'l', 'D'], .char 0xf7a7),
  (['D', 'o', 'u', 'b', 'l', 'e', 'S', 't', 'r', 'u', 'c', 'k', 'C', 'a', 'p', 'i', 't', 'a', 'l', 'E'], .char 0xf7a8),
  (['D', 'o', 'u', 'b', 'l', 'e', 'S', 't', 'r', 'u', 'c', 'k', 'C', 'a', 'p', 'i', 't', 'a', 'l', 'F'], .char 0xf7a9),
  (['D', 'o', 'u', 'b', 'l', 'e', 'S', 't', 'r', 'u', 'c', 'k', 'C', 'a', 'p', 'i', 't', 'a', 'l', 'G'], .char 0xf7aa),
  (['D', 'o', 'u', 'b', 'l', 'e', 'S', 't', 'r', 'u', 'c', 'k', 'C', 'a', 'p', 'i', 't', 'a', 'l', 'H'], .char 0xf7ab),
  (['D', 'o', 'u', 'b', 'l', 'e', 'S', 't', 'r', 'u', 'c', 'k', 'C', 'a', 'p', 'i', 't', 'a', 'l', 'I'], .char 0xf7ac),
  (['D', 'o', 'u', 'b', 'l', 'e', 'S', 't', 'r', 'u', 'c', 'k', 'C', 'a', 'p', 'i', 't', 'a', 'l', 'J'], .char 0xf7ad),
  (['D', 'o', 'u', 'b', 'l', 'e', 'S', 't', 'r', 'u', 'c', 'k', 'C', 'a', 'p', 'i', 't', 'a', 'l', 'K'], .char 0xf7ae),
  (['D', 'o', 'u', 'b', 'l', 'e', 'S', 't', 'r', 'u', 'c', 'k', 'C', 'a', 'p', 'i', 't', 'a', 'l', 'L'], .char 0xf7af),
  (['D', 'o', 'u', 'b', 'l', 'e', 'S', 't', 'r', 'u', 'c', 'k', 'C', 'a', 'p', 'i', 't', 'a', 'l', 'M'], .char 0xf7b0),
  (['D', 'o', 'u', 'b', 'l', 'e', 'S', 't', 'r', 'u', 'c', 'k', 'C', 'a', 'p', 'i', 't', 'a', 'l', 'N'], .char 0xf7b1),
  (['D', 'o', 'u', 'b', 'l', 'e', 'S', 't', 'r', 'u', 'c', 'k', 'C', 'a', 'p', 'i', 't', 'a', 'l', 'O'], .char 0xf7b2),
  (['D', 'o', 'u', 'b', 'l', 'e', 'S', 't', 'r', 'u', 'c', 'k', 'C', 'a', 'p', 'i', 't', 'a', 'l', 'P'], .char 0xf7b3),
  (['D', 'o', 'u', 'b', 'l', 'e', 'S', 't', 'r', 'u', 'c', 'k', 'C', 'a', 'p', 'i', 't', 'a', 'l', 'Q'], .char 0xf7b4),
  (['D', 'o', 'u', 'b', 'l', 'e', 'S', 't', 'r', 'u', 'c', 'k', 'C', 'a', 'p', 'i', 't', 'a', 'l', 'R'], .char 0xf7b5),
  (['D', 'o', 'u', 'b', 'l', 'e', 'S', 't', 'r', 'u', 'c', 'k', 'C', 'a', 'p', 'i', 't', 'a', 'l', 'S'], .char 0xf7b6),
  (['D', 'o', 'u', 'b', 'l', 'e', 'S', 't', 'r', 'u', 'c', 'k', 'C', 'a', 'p', 'i', 't', 'a', 'l', 'T'], .char 0xf7b7),
  (['D', 'o', 'u', 'b', 'l', 'e', 'S', 't', 'r', 'u', 'c', 'k', 'C', 'a', 'p', 'i', 't', 'a', 'l', 'U'], .char 0xf7b8),
  (['D', 'o', 'u', 'b', 'l', 'e', 'S', 't', 'r', 'u', 'c', 'k', 'C', 'a', 'p', 'i', 't', 'a', 'l', 'V'], .char 0xf7b9),
  (['D', 'o', 'u', 'b', 'l', 'e', 'S', 't', 'r', 'u', 'c', 'k', 'C', 'a', 'p', 'i', 't', 'a', 'l', 'W'], .char 0xf7ba),
  (['D', 'o', 'u', 'b', 'l', 'e', 'S', 't', 'r', 'u', 'c', 'k', 'C', 'a', 'p', 'i', 't', 'a', 'l', 'X'], .char 0xf7bb),
  (['D', 'o', 'u', 'b', 'l', 'e', 'S', 't', 'r', 'u', 'c', 'k', 'C', 'a', 'p', 'i', 't', 'a', 'l', 'Y'], .char 0xf7bc),
  (['D', 'o', 'u', 'b', 'l', 'e', 'S', 't', 'r', 'u', 'c', 'k', 'C', 'a', 'p', 'i', 't', 'a', 'l', 'Z'], .char 0xf7bd),
  (['D', 'o', 'u', 'b', 'l', 'e', 'S', 't', 'r', 'u', 'c', 'k', 'D'], .char 0xf6e9),
  (['D', 'o', 'u', 'b', 'l', 'e', 'S', 't', 'r', 'u', 'c', 'k', 'E'], .char 0xf6ea),
  (['D', 'o', 'u', 'b', 'l', 'e', 'S', 't', 'r', 'u', 'c', 'k', 'E', 'i', 'g', 'h', 't'], .char 0xf7e3),
  (['D', 'o', 'u', 'b', 'l', 'e', 'S', 't', 'r', 'u', 'c', 'k', 'F'], .char 0xf6eb),
  (['D', 'o', 'u', 'b', 'l', 'e', 'S', 't', 'r', 'u', 'c', 'k', 'F', 'i', 'v', 'e'], .char 0xf7e0),
  (['D', 'o', 'u', 'b', 'l', 'e', 'S', 't', 'r', 'u', 'c', 'k', 'F', 'o', 'u', 'r'], .char 0xf7df),
  (['D', 'o', 'u', 'b', 'l', 'e', 'S', 't', 'r', 'u', 'c', 'k', 'G'], .char 0xf6ec),
  (['D', 'o', 'u', 'b', 'l', 'e', 'S', 't', 'r', 'u', 'c', 'k', 'H'], .char 0xf6ed),
  (['D', 'o', 'u', 'b', 'l', 'e', 'S', 't', 'r', 'u', 'c', 'k', 'I'], .char 0xf6ee),
  (['D', 'o', 'u', 'b', 'l', 'e', 'S', 't', 'r', 'u', 'c', 'k', 'J'], .char 0xf6ef),
  (['D', 'o', 'u', 'b', 'l', 'e', 'S', 't', 'r', 'u', 'c', 'k', 'K'], .char 0xf6f0),
  (['D', 'o', 'u', 'b', 'l', 'e', 'S', 't', 'r', 'u', 'c', 'k', 'L'], .char 0xf6f1),
  (['D', 'o', 'u', 'b', 'l', 'e', 'S', 't', 'r', 'u', 'c', 'k', 'M'], .char 0xf6f2),
  (['D', 'o', 'u', 'b', 'l', 'e', 'S', 't', 'r', 'u', 'c', 'k', 'N'], .char 0xf6f3),
  (['D', 'o', 'u', 'b', 'l', 'e', 'S', 't', 'r', 'u', 'c', 'k', 'N', 'i', 'n', 'e'], .char 0xf7e4),
  (['D', 'o', 'u', 'b', 'l', 'e', 'S', 't', 'r', 'u', 'c', 'k', 'O'], .char 0xf6f4),
  (['D', 'o', 'u', 'b', 'l', 'e', 'S', 't', 'r', 'u', 'c', 'k', 'O', 'n', 'e'], .char 0xf7dc),
  (['D', 'o', 'u', 'b', 'l', 'e', 'S', 't', 'r', 'u', 'c', 'k', 'P'], .char 0xf6f5),
  (['D', 'o', 'u', 'b', 'l', 'e', 'S', 't', 'r', 'u', 'c', 'k', 'Q'], .char 0xf6f6),
  (['D', 'o', 'u', 'b', 'l', 'e', 'S', 't', 'r', 'u', 'c', 'k', 'R'], .char 0xf6f7),
  (['D', 'o', 'u', 'b', 'l', 'e', 'S', 't', 'r', 'u', 'c', 'k', 'S'], .char 0xf6f8),
  (['D', 'o', 'u', 'b', 'l', 'e', 'S', 't', 'r', 'u', 'c', 'k', 'S', 'e', 'v', 'e', 'n'], .char 0xf7e2),
  (['D', 'o', 'u', 'b', 'l', 'e', 'S', 't', 'r', 'u', 'c', 'k', 'S', 'i', 'x'], .char 0xf7e1),
  (['D', 'o', 'u', 'b', 'l', 'e', 'S', 't', 'r', 'u', 'c', 'k', 'T'], .char 0xf6f9),
  (['D', 'o', 'u', 'b', 'l', 'e', 'S', 't', 'r', 'u', 'c', 'k', 'T', 'h', 'r', 'e', 'e'], .char 0xf7de),
  (['D', 'o', 'u', 'b', 'l', 'e', 'S', 't', 'r', 'u', 'c', 'k', 'T', 'w', 'o'], .char 0xf7dd),
  (['D', 'o', 'u', 'b', 'l', 'e', 'S', 't', 'r', 'u', 'c', 'k', 'U'], .char 0xf6fa),
  (['D', 'o', 'u', 'b', 'l', 'e', 'S', 't', 'r', 'u', 'c', 'k', 'V'], .char 0xf6fb),
  (['D', 'o', 'u', 'b', 'l', 'e', 'S', 't', 'r', 'u', 'c', 'k', 'W'], .char 0xf6fc),
  (['D', 'o', 'u', 'b', 'l', 'e', 'S', 't', 'r', 'u', 'c', 'k', 'X'], .char 0xf6fd),
  (['D', 'o', 'u', 'b', 'l', 'e', 'S', 't', 'r', 'u', 'c', 'k', 'Y'], .char 0xf6fe),
  (['D', 'o', 'u', 'b', 'l', 'e', 'S', 't', 'r', 'u', 'c', 'k', 'Z'], .char 0xf6ff),
  (['D', 'o', 'u', 'b', 'l', 'e', 'S', 't', 'r', 'u', 'c', 'k', 'Z', 'e', 'r', 'o'], .char 0xf7db),
  (['D', 'o', 'u', 'b', 'l', 'e', 'U', 'p', 'A', 'r', 'r', 'o', 'w'], .char 0x21d1),
  (['D', 'o', 'u', 'b', 'l', 'e', 'U', 'p', 'D', 'o', 'w', 'n', 'A', 'r', 'r', 'o', 'w'], .char 0x21d5),
  (['D', 'o', 'u', 'b', 'l', 'e', 'V', 'e', 'r', 't', 'i', 'c', 'a', 'l', 'B', 'a', 'r'], .char 0x2225),
  (['D', 'o', 'u', 'b', 'l', 'e', 'd', 'G', 'a', 'm', 'm', 'a'], .char 0xf74a),
  (['D', 'o', 'u', 'b', 'l', 'e', 'd', 'P', 'i'], .char 0xf749),
  (['D', 'o', 'w', 'n', 'A', 'r', 'r', 'o', 'w'], .char 0x2193),
  (['D', 'o', 'w', 'n', 'A', 'r', 'r', 'o', 'w', 'B', 'a', 'r'], .char 0x2913),
  (['D', 'o', 'w', 'n', 'A', 'r', 'r', 'o', 'w', 'U', 'p', 'A', 'r', 'r', 'o', 'w'], .char 0x21f5),
  (['D', 'o', 'w', 'n', 'B', 'r', 'e', 'v', 'e'], .char 0xf755),
  (['D', 'o', 'w', 'n', 'E', 'x', 'c', 'l', 'a', 'm', 'a', 't', 'i', 'o', 'n'], .char 0xa1),
  (['D', 'o', 'w', 'n', 'L', 'e', 'f', 't', 'R', 'i', 'g', 'h', 't', 'V', 'e', 'c', 't', 'o', 'r'], .char 0x2950),
  (['D', 'o', 'w', 'n', 'L', 'e', 'f', 't', 'T', 'e', 'e', 'V', 'e', 'c', 't', 'o', 'r'], .char 0x295e),
  (['D', 'o', 'w', 'n', 'L', 'e', 'f', 't', 'V', 'e', 'c', 't', 'o', 'r'], .char 0x21bd),
  (['D', 'o', 'w', 'n', 'L', 'e', 'f', 't', 'V', 'e', 'c', 't', 'o', 'r', 'B', 'a', 'r'], .char 0x2956),
  (['D', 'o', 'w', 'n', 'P', 'o', 'i', 'n', 't', 'e', 'r'], .char 0x25be),
  (['D', 'o', 'w', 'n', 'Q', 'u', 'e', 's', 't', 'i', 'o', 'n'], .char 0xbf),
  (['D', 'o', 'w', 'n', 'R', 'i', 'g', 'h', 't', 'T', 'e', 'e', 'V', 'e', 'c', 't', 'o', 'r'], .char 0x295f),
  (['D', 'o', 'w', 'n', 'R', 'i', 'g', 'h', 't', 'V', 'e', 'c', 't', 'o', 'r'], .char 0x21c1),
  (['D', 'o', 'w', 'n', 'R', 'i', 'g', 'h', 't', 'V', 'e', 'c', 't', 'o', 'r', 'B', 'a', 'r'], .char 0x2957),
  (['D', 'o', 'w', 'n', 'T', 'e', 'e'], .char 0x22a4),
  (['D', 'o', 'w', 'n', 'T', 'e', 'e', 'A', 'r', 'r', 'o', 'w'], .char 0x21a7),
  (['E', 'A', 'c', 'u', 't', 'e'], .char 0xe9),
  (['E', 'B', 'a', 'r'], .char 0x113),
  (['E', 'C', 'u', 'p'], .char 0x115),
  (['E', 'D', 'o', 'u', 'b', 'l', 'e', 'D', 'o', 't'], .char 0xeb),
  (['E', 'G', 'r', 'a', 'v', 'e'], .char 0xe8),
  (['E', 'H', 'a', 'c', 'e', 'k'], .char 0x11b),
  (['E', 'H', 'a', 't'], .char 0xea),
  (['E', 'a', 'r', 't', 'h'], .char 0xf3df),
  (['E', 'i', 'g', 'h', 't', 'h', 'N', 'o', 't', 'e'], .char 0x266a),
  (['E', 'l', 'e', 'm', 'e', 'n', 't'], .char 0x2208),
  (['E', 'l', 'l', 'i', 'p', 's', 'i', 's'], .char 0x2026),
  (['E', 'm', 'p', 't', 'y', 'C', 'i', 'r', 'c', 'l', 'e'], .char 0x25cb),
  (['E', 'm', 'p', 't', 'y', 'D', 'i', 'a', 'm', 'o', 'n', 'd'], .char 0x25c7),
  (['E', 'm', 'p', 't', 'y', 'D', 'o', 'w', 'n', 'T', 'r', 'i', 'a', 'n', 'g', 'l', 'e'], .char 0x25bd),
  (['E', 'm', 'p', 't', 'y', 'R', 'e', 'c', 't', 'a', 'n', 'g', 'l', 'e'], .char 0x25af),
  (['E', 'm', 'p', 't', 'y', 'S', 'e', 't'], .char 0x2205),
  (['E', 'm', 'p', 't', 'y', 'S', 'm', 'a', 'l', 'l', 'C', 'i', 'r', 'c', 'l', 'e'], .char 0x25e6),
  (['E', 'm', 'p', 't', 'y', 'S', 'm', 'a', 'l', 'l', 'S', 'q', 'u', 'a', 'r', 'e'], .char 0x25fb),
  (['E', 'm', 'p', 't', 'y', 'S', 'q', 'u', 'a', 'r', 'e'], .char 0x25a1),
  (['E', 'm', 'p', 't', 'y', 'U', 'p', 'T', 'r', 'i', 'a', 'n', 'g', 'l', 'e'], .char 0x25b3),
  (['E', 'm', 'p', 't', 'y', 'V', 'e', 'r', 'y', 'S', 'm', 'a', 'l', 'l', 'S', 'q', 'u', 'a', 'r', 'e'], .char 0x25ab),
  (['E', 'n', 't', 'e', 'r', 'K', 'e', 'y'], .char 0xf7d4),
  (['E', 'n', 't', 'i', 't', 'y', 'E', 'n', 'd'], .char 0xf3b9),
  (['E', 'n', 't', 'i', 't', 'y', 'S', 't', 'a', 'r', 't'], .char 0xf3b8),
  (['E', 'p', 's', 'i', 'l', 'o', 'n'], .char 0x3f5),
  (['E', 'q', 'u', 'a', 'l'], .char 0xf431),
  (['E', 'q', 'u', 'a', 'l', 'T', 'i', 'l', 'd', 'e'], .char 0x2242),
  (['E', 'q', 'u', 'i', 'l', 'i', 'b', 'r', 'i', 'u', 'm'], .char 0x21cc),
  (['E', 'q', 'u', 'i', 'v', 'a', 'l', 'e', 'n', 't'], .char 0x29e6),
  (['E', 'r', 'r', 'o', 'r', 'I', 'n', 'd', 'i', 'c', 'a', 't', 'o', 'r'], .char 0xf767),
  (['E', 's', 'c', 'a', 'p', 'e', 'K', 'e', 'y'], .char 0xf769),
  (['E', 't', 'a'], .char 0x3b7),
  (['E', 't', 'h'], .char 0xf0),
  (['E', 'u', 'r', 'o'], .char 0x20ac),
  (['E', 'x', 'i', 's', 't', 's'], .char 0x2203),
  (['E', 'x', 'p', 'e', 'c', 't', 'a', 't', 'i', 'o', 'n', 'E'], .char 0xf3dd),
  (['E', 'x', 'p', 'o', 'n', 'e', 'n', 't', 'i', 'a', 'l', 'E'], .char 0xf74d),
  (['F', 'i', 'L', 'i', 'g', 'a', 't', 'u', 'r', 'e'], .char 0xfb01),
  (['F', 'i', 'l', 'l', 'e', 'd', 'C', 'i', 'r', 'c', 'l', 'e'], .char 0x25cf),
  (['F', 'i', 'l', 'l', 'e', 'd', 'D', 'i', 'a', 'm', 'o', 'n', 'd'], .char 0x25c6),
  (['F', 'i', 'l', 'l', 'e', 'd', 'D', 'o', 'w', 'n', 'T', 'r', 'i', 'a', 'n', 'g', 'l', 'e'], .char 0x25bc),
  (['F', 'i', 'l', 'l', 'e', 'd', 'L', 'e', 'f', 't', 'T', 'r', 'i', 'a', 'n', 'g', 'l', 'e'], .char 0x25c0),
  (['F', 'i', 'l', 'l', 'e', 'd', 'R', 'e', 'c', 't', 'a', 'n', 'g', 'l', 'e'], .char 0x25ae),
  (['F', 'i', 'l', 'l', 'e', 'd', 'R', 'i', 'g', 'h', 't', 'T', 'r', 'i', 'a', 'n', 'g', 'l', 'e'], .char 0x25b6),
  (['F', 'i', 'l', 'l', 'e', 'd', 'S', 'm', 'a', 'l', 'l', 'C', 'i', 'r', 'c', 'l', 'e'], .char 0xf750),
  (['F', 'i', 'l', 'l', 'e', 'd', 'S', 'm', 'a', 'l', 'l', 'S', 'q', 'u', 'a', 'r', 'e'], .char 0x25fc),
  (['F', 'i', 'l', 'l', 'e', 'd', 'S', 'q', 'u', 'a', 'r', 'e'], .char 0x25a0),
  (['F', 'i', 'l', 'l', 'e', 'd', 'U', 'p', 'T', 'r', 'i', 'a', 'n', 'g', 'l', 'e'], .char 0x25b2),
  (['F', 'i', 'l', 'l', 'e', 'd', 'V', 'e', 'r', 'y', 'S', 'm', 'a', 'l', 'l', 'S', 'q', 'u', 'a', 'r', 'e'], .char 0x25aa),
  (['F', 'i', 'n', 'a', 'l', 'S', 'i', 'g', 'm', 'a'], .char 0x3c2),
  (['F', 'i', 'r', 's', 't', 'P', 'a', 'g', 'e'], .char 0xf7fa),
  (['F', 'i', 'v', 'e', 'P', 'o', 'i', 'n', 't', 'e', 'd', 'S', 't', 'a', 'r'], .char 0x2605),
  (['F', 'l', 'L', 'i', 'g', 'a', 't', 'u', 'r', 'e'], .char 0xfb02),
  (['F', 'l', 'a', 't'], .char 0x266d),
  (['F', 'l', 'o', 'r', 'i', 'n'], .char 0x192),
  (['F', 'o', 'r', 'A', 'l', 'l'], .char 0x2200),
  (['F', 'o', 'r', 'm', 'a', 'l', 'A'], .char 0xf800),
  (['F', 'o', 'r', 'm', 'a', 'l', 'A', 'l', 'p', 'h', 'a'], .char 0xf854),
  (['F', 'o', 'r', 'm', 'a', 'l', 'B'], .char 0xf801),
  (['F', 'o', 'r', 'm', 'a', 'l', 'B', 'e', 't', 'a'], .char 0xf855),
  (['F', 'o', 'r', 'm', 'a', 'l', 'C'], .char 0xf802),
  (['F', 'o', 'r', 'm', 'a', 'l', 'C', 'a', 'p', 'i', 't', 'a', 'l', 'A'], .char 0xf81a),
  (['F', 'o', 'r', 'm', 'a', 'l', 'C', 'a', 'p', 'i', 't', 'a', 'l', 'A', 'l', 'p', 'h', 'a'], .char 0xf834),
  (['F', 'o', 'r', 'm', 'a', 'l', 'C', 'a', 'p', 'i', 't', 'a', 'l', 'B'], .char 0xf81b),
  (['F', 'o', 'r', 'm', 'a', 'l', 'C', 'a', 'p', 'i', 't', 'a', 'l', 'B', 'e', 't', 'a'], .char 0xf835),
  (['F', 'o', 'r', 'm', 'a', 'l', 'C', 'a', 'p', 'i', 't', 'a', 'l', 'C'], .char 0xf81c),
  (['F', 'o', 'r', 'm', 'a', 'l', 'C', 'a', 'p', 'i', 't', 'a', 'l', 'C', 'h', 'i'], .char 0xf84a),
  (['F', 'o', 'r', 'm', 'a', 'l', 'C', 'a', 'p', 'i', 't', 'a', 'l', 'D'], .char 0xf81d),
  (['F', 'o', 'r', 'm', 'a', 'l', 'C', 'a', 'p', 'i', 't', 'a', 'l', 'D', 'e', 'l', 't', 'a'], .char 0xf837),
  (['F', 'o', 'r', 'm', 'a', 'l', 'C', 'a', 'p', 'i', 't', 'a', 'l', 'D', 'i', 'g', 'a', 'm', 'm', 'a'], .char 0xf87f),
  (['F', 'o', 'r', 'm', 'a', 'l', 'C', 'a', 'p', 'i', 't', 'a', 'l', 'E'], .char 0xf81e),
  (['F', 'o', 'r', 'm', 'a', 'l', 'C', 'a', 'p', 'i', 't', 'a', 'l', 'E', 'p', 's', 'i', 'l', 'o', 'n'], .char 0xf838),
  (['F', 'o', 'r', 'm', 'a', 'l', 'C', 'a', 'p', 'i', 't', 'a', 'l', 'E', 't', 'a'], .char 0xf83a),
  (['F', 'o', 'r', 'm', 'a', 'l', 'C', 'a', 'p', 'i', 't', 'a', 'l', 'F'], .char 0xf81f),
  (['F', 'o', 'r', 'm', 'a', 'l', 'C', 'a', 'p', 'i', 't', 'a', 'l', 'G'], .char 0xf820),
  (['F', 'o', 'r', 'm', 'a', 'l', 'C', 'a', 'p', 'i', 't', 'a', 'l', 'G', 'a', 'm', 'm', 'a'], .char 0xf836),
  (['F', 'o', 'r', 'm', 'a', 'l', 'C', 'a', 'p', 'i', 't', 'a', 'l', 'H'], .char 0xf821),
  (['F', 'o', 'r', 'm', 'a', 'l', 'C', 'a', 'p', 'i', 't', 'a', 'l', 'I'], .char 0xf822),
  (['F', 'o', 'r', 'm', 'a', 'l', 'C', 'a', 'p', 'i', 't', 'a', 'l', 'I', 'o', 't', 'a'], .char 0xf83c),
  (['F', 'o', 'r', 'm', 'a', 'l', 'C', 'a', 'p', 'i', 't', 'a', 'l', 'J'], .char 0xf823),
  (['F', 'o', 'r', 'm', 'a', 'l', 'C', 'a', 'p', 'i', 't', 'a', 'l', 'K'], .char 0xf824),
  (['F', 'o', 'r', 'm', 'a', 'l', 'C', 'a', 'p', 'i', 't', 'a', 'l', 'K', 'a', 'p', 'p', 'a'], .char 0xf83d),
  (['F', 'o', 'r', 'm', 'a', 'l', 'C', 'a', 'p', 'i', 't', 'a', 'l', 'K', 'o', 'p', 'p', 'a'], .char 0xf881),
  (['F', 'o', 'r', 'm', 'a', 'l', 'C', 'a', 'p', 'i', 't', 'a', 'l', 'L'], .char 0xf825),
  (['F', 'o', 'r', 'm', 'a', 'l', 'C', 'a', 'p', 'i', 't', 'a', 'l', 'L', 'a', 'm', 'b', 'd', 'a'], .char 0xf83e),
  (['F', 'o', 'r', 'm', 'a', 'l', 'C', 'a', 'p', 'i', 't', 'a', 'l', 'M'], .char 0xf826),
  (['F', 'o', 'r', 'm', 'a', 'l', 'C', 'a', 'p', 'i', 't', 'a', 'l', 'M', 'u'], .char 0xf83f),
  (['F', 'o', 'r', 'm', 'a', 'l', 'C', 'a', 'p', 'i', 't', 'a', 'l', 'N'], .char 0xf827),
  (['F', 'o', 'r', 'm', 'a', 'l', 'C', 'a', 'p', 'i', 't', 'a', 'l', 'N', 'u'], .char 0xf840),
  (['F', 'o', 'r', 'm', 'a', 'l', 'C', 'a', 'p', 'i', 't', 'a', 'l', 'O'], .char 0xf828),
  (['F', 'o', 'r', 'm', 'a', 'l', 'C', 'a', 'p', 'i', 't', 'a', 'l', 'O', 'm', 'e', 'g', 'a'], .char 0xf84c),
  (['F', 'o', 'r', 'm', 'a', 'l', 'C', 'a', 'p', 'i', 't', 'a', 'l', 'O', 'm', 'i', 'c', 'r', 'o', 'n'], .char 0xf842),
  (['F', 'o', 'r', 'm', 'a', 'l', 'C', 'a', 'p', 'i', 't', 'a', 'l', 'P'], .char 0xf829),
  (['F', 'o', 'r', 'm', 'a', 'l', 'C', 'a', 'p', 'i', 't', 'a', 'l', 'P', 'h', 'i'], .char 0xf849),
  (['F', 'o', 'r', 'm', 'a', 'l', 'C', 'a', 'p', 'i', 't', 'a', 'l', 'P', 'i'], .char 0xf843),
  (['F', 'o', 'r', 'm', 'a', 'l', 'C', 'a', 'p', 'i', 't', 'a', 'l', 'P', 's', 'i'], .char 0xf84b),
  (['F', 'o', 'r', 'm', 'a', 'l', 'C', 'a', 'p', 'i', 't', 'a', 'l', 'Q'], .char 0xf82a),
  (['F', 'o', 'r', 'm', 'a', 'l', 'C', 'a', 'p', 'i', 't', 'a', 'l', 'R'], .char 0xf82b),
  (['F', 'o', 'r', 'm', 'a', 'l', 'C', 'a', 'p', 'i', 't', 'a', 'l', 'R', 'h', 'o'], .char 0xf844),
  (['F', 'o', 'r', 'm', 'a', 'l', 'C', 'a', 'p', 'i', 't', 'a', 'l', 'S'], .char 0xf82c),
  (['F', 'o', 'r', 'm', 'a', 'l', 'C', 'a', 'p', 'i', 't', 'a', 'l', 'S', 'a', 'm', 'p', 'i'], .char 0xf883),
  (['F', 'o', 'r', 'm', 'a', 'l', 'C', 'a', 'p', 'i', 't', 'a', 'l', 'S', 'i', 'g', 'm', 'a'], .char 0xf846),
  (['F', 'o', 'r', 'm', 'a', 'l', 'C', 'a', 'p', 'i', 't', 'a', 'l', 'S', 't', 'i', 'g', 'm', 'a'], .char 0xf87d),
  (['F', 'o', 'r', 'm', 'a', 'l', 'C', 'a', 'p', 'i', 't', 'a', 'l', 'T'], .char 0xf82d),
  (['F', 'o', 'r', 'm', 'a', 'l', 'C', 'a', 'p', 'i', 't', 'a', 'l', 'T', 'a', 'u'], .char 0xf847),
  (['F', 'o', 'r', 'm', 'a', 'l', 'C', 'a', 'p', 'i', 't', 'a', 'l', 'T', 'h', 'e', 't', 'a'], .char 0xf83b),
  (['F', 'o', 'r', 'm', 'a', 'l', 'C', 'a', 'p', 'i', 't', 'a', 'l', 'U'], .char 0xf82e),
  (['F', 'o', 'r', 'm', 'a', 'l', 'C', 'a', 'p', 'i', 't', 'a', 'l', 'U', 'p', 's', 'i', 'l', 'o', 'n'], .char 0xf848),
  (['F', 'o', 'r', 'm', 'a', 'l', 'C', 'a', 'p', 'i', 't', 'a', 'l', 'V'], .char 0xf82f),
  (['F', 'o', 'r', 'm', 'a', 'l', 'C', 'a', 'p', 'i', 't', 'a', 'l', 'W'], .char 0xf830),
  (['F', 'o', 'r', 'm', 'a', 'l', 'C', 'a', 'p', 'i', 't', 'a', 'l', 'X'], .char 0xf831),
  (['F', 'o', 'r', 'm', 'a', 'l', 'C', 'a', 'p', 'i', 't', 'a', 'l', 'X', 'i'], .char 0xf841),
  (['F', 'o', 'r', 'm', 'a', 'l', 'C', 'a', 'p', 'i', 't', 'a', 'l', 'Y'], .char 0xf832),
  (['F', 'o', 'r', 'm', 'a', 'l', 'C', 'a', 'p', 'i', 't', 'a', 'l', 'Z'], .char 0xf833),
  (['F', 'o', 'r', 'm', 'a', 'l', 'C', 'a', 'p', 'i', 't', 'a', 'l', 'Z', 'e', 't', 'a'], .char 0xf839),
  (['F', 'o', 'r', 'm', 'a', 'l', 'C', 'h', 'i'], .char 0xf86a),
  (['F', 'o', 'r', 'm', 'a', 'l', 'C', 'u', 'r', 'l', 'y', 'C', 'a', 'p', 'i', 't', 'a', 'l', 'U', 'p', 's', 'i', 'l', 'o', 'n'], .char 0xf875),
  (['F', 'o', 'r', 'm', 'a', 'l', 'C', 'u', 'r', 'l', 'y', 'E', 'p', 's', 'i', 'l', 'o', 'n'], .char 0xf858),
  (['F', 'o', 'r', 'm', 'a', 'l', 'C', 'u', 'r', 'l', 'y', 'K', 'a', 'p', 'p', 'a'], .char 0xf885),
  (['F', 'o', 'r', 'm', 'a', 'l', 'C', 'u', 'r', 'l', 'y', 'P', 'h', 'i'], .char 0xf869),
  (['F', 'o', 'r', 'm', 'a', 'l', 'C', 'u', 'r', 'l', 'y', 'P', 'i'], .char 0xf879),
  (['F', 'o', 'r', 'm', 'a', 'l', 'C', 'u', 'r', 'l', 'y', 'R', 'h', 'o'], .char 0xf886),
  (['F', 'o', 'r', 'm', 'a', 'l', 'C', 'u', 'r', 'l', 'y', 'T', 'h', 'e', 't', 'a'], .char 0xf874),
  (['F', 'o', 'r', 'm', 'a', 'l', 'D'], .char 0xf803),
  (['F', 'o', 'r', 'm', 'a', 'l', 'D', 'e', 'l', 't', 'a'], .char 0xf857),
  (['F', 'o', 'r', 'm', 'a', 'l', 'D', 'i', 'g', 'a', 'm', 'm', 'a'], .char 0xf880),
  (['F', 'o', 'r', 'm', 'a', 'l', 'E'], .char 0xf804),
  (['F', 'o', 'r', 'm', 'a', 'l', 'E', 'p', 's', 'i', 'l', 'o', 'n'], .char 0xf88a),
  (['F', 'o', 'r', 'm', 'a', 'l', 'E', 't', 'a'], .char 0xf85a),
  (['F', 'o', 'r', 'm', 'a', 'l', 'F'], .char 0xf805),
  (['F', 'o', 'r', 'm', 'a', 'l', 'F', 'i', 'n', 'a', 'l', 'S', 'i', 'g', 'm', 'a'], .char 0xf865),
  (['F', 'o', 'r', 'm', 'a', 'l', 'G'], .char 0xf806),
  (['F', 'o', 'r', 'm', 'a', 'l', 'G', 'a', 'm', 'm', 'a'], .char 0xf856),
  (['F', 'o', 'r', 'm', 'a', 'l', 'H'], .char 0xf807),
  (['F', 'o', 'r', 'm', 'a', 'l', 'I'], .char 0xf808),
  (['F', 'o', 'r', 'm', 'a', 'l', 'I', 'o', 't', 'a'], .char 0xf85c),
  (['F', 'o', 'r', 'm', 'a', 'l', 'J'], .char 0xf809),
  (['F', 'o', 'r', 'm', 'a', 'l', 'K'], .char 0xf80a),
  (['F', 'o', 'r', 'm', 'a', 'l', 'K', 'a', 'p', 'p', 'a'], .char 0xf85d),
  (['F', 'o', 'r', 'm', 'a', 'l', 'K', 'o', 'p', 'p', 'a'], .char 0xf882),
  (['F', 'o', 'r', 'm', 'a', 'l', 'L'], .char 0xf80b),
  (['F', 'o', 'r', 'm', 'a', 'l', 'L', 'a', 'm', 'b', 'd', 'a'], .char 0xf85e),
  (['F', 'o', 'r', 'm', 'a', 'l', 'M'], .char 0xf80c),
  (['F', 'o', 'r', 'm', 'a', 'l', 'M', 'u'], .char 0xf85f),
  (['F', 'o', 'r', 'm', 'a', 'l', 'N'], .char 0xf80d),
  (['F', 'o', 'r', 'm', 'a', 'l', 'N', 'u'], .char 0xf860),
  (['F', 'o', 'r', 'm', 'a', 'l', 'O'], .char 0xf80e),
  (['F', 'o', 'r', 'm', 'a', 'l', 'O', 'm', 'e', 'g', 'a'], .char 0xf86c),
  (['F', 'o', 'r', 'm', 'a', 'l', 'O', 'm', 'i', 'c', 'r', 'o', 'n'], .char 0xf862),
  (['F', 'o', 'r', 'm', 'a', 'l', 'P'], .char 0xf80f),
  (['F', 'o', 'r', 'm', 'a', 'l', 'P', 'h', 'i'], .char 0xf878),
  (['F', 'o', 'r', 'm', 'a', 'l', 'P', 'i'], .char 0xf863),
  (['F', 'o', 'r', 'm', 'a', 'l', 'P', 's', 'i'], .char 0xf86b),
  (['F', 'o', 'r', 'm', 'a', 'l', 'Q'], .char 0xf810),
  (['F', 'o', 'r', 'm', 'a', 'l', 'R'], .char 0xf811),
  (['F', 'o', 'r', 'm', 'a', 'l', 'R', 'h', 'o'], .char 0xf864),
  (['F', 'o', 'r', 'm', 'a', 'l', 'S'], .char 0xf812),
  (['F', 'o', 'r', 'm', 'a', 'l', 'S', 'a', 'm', 'p', 'i'], .char 0xf884),
  (['F', 'o', 'r', 'm', 'a', 'l', 'S', 'c', 'r', 'i', 'p', 't', 'A'], .char 0xfa000),
  (['F', 'o', 'r', 'm', 'a', 'l', 'S', 'c', 'r', 'i', 'p', 't', 'B'], .char 0xfa001),
  (['F', 'o', 'r', 'm', 'a', 'l', 'S', 'c', 'r', 'i', 'p', 't', 'C'], .char 0xfa002),
  (['F', 'o', 'r', 'm', 'a', 'l', 'S', 'c', 'r', 'i', 'p', 't', 'C', 'a', 'p', 'i', 't', 'a', 'l', 'A'], .char 0xfa01a),
  (['F', 'o', 'r', 'm', 'a', 'l', 'S', 'c', 'r', 'i', 'p', 't', 'C', 'a', 'p', 'i', 't', 'a', 'l', 'B'], .char 0xfa01b),
  (['F', 'o', 'r', 'm', 'a', 'l', 'S', 'c', 'r', 'i', 'p', 't', 'C', 'a', 'p', 'i', 't', 'a', 'l', 'C'], .char 0xfa01c),
  (['F', 'o', 'r', 'm', 'a', 'l', 'S', 'c', 'r', 'i', 'p', 't', 'C', 'a', 'p', 'i', 't', 'a', 'l', 'D'], .char 0xfa01d),
  (['F', 'o', 'r', 'm', 'a', 'l', 'S', 'c', 'r', 'i', 'p', 't', 'C', 'a', 'p', 'i', 't', 'a', 'l', 'E'], .char 0xfa01e),
  (['F', 'o', 'r', 'm', 'a', 'l', 'S', 'c', 'r', 'i', 'p', 't', 'C', 'a', 'p', 'i', 't', 'a', 'l', 'F'], .char 0xfa01f),
  (['F', 'o', 'r', 'm', 'a', 'l', 'S', 'c', 'r', 'i', 'p', 't', 'C', 'a', 'p', 'i', 't', 'a', 'l', 'G'], .char 0xfa020),
  (['F', 'o', 'r', 'm', 'a', 'l', 'S', 'c', 'r', 'i', 'p', 't', 'C', 'a', 'p', 'i', 't', 'a', 'l', 'H'], .char 0xfa021),
  (['F', 'o', 'r', 'm', 'a', 'l', 'S', 'c', 'r', 'i', 'p', 't', 'C', 'a', 'p', 'i', 't', 'a', 'l', 'I'], .char 0xfa022),
  (['F', 'o', 'r', 'm', 'a', 'l', 'S', 'c', 'r', 'i', 'p', 't', 'C', 'a', 'p', 'i', 't', 'a', 'l', 'J'], .char 0xfa023),
  (['F', 'o', 'r', 'm', 'a', 'l', 'S', 'c', 'r', 'i', 'p', 't', 'C', 'a', 'p', 'i', 't', 'a', 'l', 'K'], .char 0xfa024),
  (['F', 'o', 'r', 'm', 'a', 'l', 'S', 'c', 'r', 'i', 'p', 't', 'C', 'a', 'p', 'i', 't', 'a', 'l', 'L'], .char 0xfa025),
  (['F', 'o', 'r', 'm', 'a', 'l', 'S', 'c', 'r', 'i', 'p', 't', 'C', 'a', 'p', 'i', 't', 'a', 'l', 'M'], .char 0xfa026),
  (['F', 'o', 'r', 'm', 'a', 'l', 'S', 'c', 'r', 'i', 'p', 't', 'C', 'a', 'p', 'i', 't', 'a', 'l', 'N'], .char 0xfa027),
  (['F', 'o', 'r', 'm', 'a', 'l', 'S', 'c', 'r', 'i', 'p', 't', 'C', 'a', 'p', 'i', 't', 'a', 'l', 'O'], .char 0xfa028),
  (['F', 'o', 'r', 'm', 'a', 'l', 'S', 'c', 'r', 'i', 'p', 't', 'C', 'a', 'p', 'i', 't', 'a', 'l', 'P'], .char 0xfa029),
  (['F', 'o', 'r', 'm', 'a', 'l', 'S', 'c', 'r', 'i', 'p', 't', 'C', 'a', 'p', 'i', 't', 'a', 'l', 'Q'], .char 0xfa02a),
  (['F', 'o', 'r', 'm', 'a', 'l', 'S', 'c', 'r', 'i', 'p', 't', 'C', 'a', 'p', 'i', 't', 'a', 'l', 'R'], .char 0xfa02b),
  (['F', 'o', 'r', 'm', 'a', 'l', 'S', 'c', 'r', 'i', 'p', 't', 'C', 'a', 'p', 'i', 't', 'a', 'l', 'S'], .char 0xfa02c),
  (['F', 'o', 'r', 'm', 'a', 'l', 'S', 'c', 'r', 'i', 'p', 't', 'C', 'a', 'p', 'i', 't', 'a', 'l', 'T'], .char 0xfa02d),
  (['F', 'o', 'r', 'm', 'a', 'l', 'S', 'c', 'r', 'i', 'p', 't', 'C', 'a', 'p', 'i', 't', 'a', 'l', 'U'], .char 0xfa02e),
  (['F', 'o', 'r', 'm', 'a', 'l', 'S', 'c', 'r', 'i', 'p', 't', 'C', 'a', 'p', 'i', 't', 'a', 'l', 'V'], .char 0xfa02f),
  (['F', 'o', 'r', 'm', 'a', 'l', 'S', 'c', 'r', 'i', 'p', 't', 'C', 'a', 'p', 'i', 't', 'a', 'l', 'W'], .char 0xfa030),
  (['F', 'o', 'r', 'm', 'a', 'l', 'S', 'c', 'r', 'i', 'p', 't', 'C', 'a', 'p', 'i', 't', 'a', 'l', 'X'], .char 0xfa031),
  (['F', 'o', 'r', 'm', 'a', 'l', 'S', 'c', 'r', 'i', 'p', 't', 'C', 'a', 'p', 'i', 't', 'a', 'l', 'Y'], .char 0xfa032),
  (['F', 'o', 'r', 'm', 'a', 'l', 'S', 'c', 'r', 'i', 'p', 't', 'C', 'a', 'p', 'i', 't', 'a', 'l', 'Z'], .char 0xfa033),
  (['F', 'o', 'r', 'm', 'a', 'l', 'S', 'c', 'r', 'i', 'p', 't', 'D'], .char 0xfa003),
  (['F', 'o', 'r', 'm', 'a', 'l', 'S', 'c', 'r', 'i', 'p', 't', 'E'], .char 0xfa004),
  (['F', 'o', 'r', 'm', 'a', 'l', 'S', 'c', 'r', 'i', 'p', 't', 'F'], .char 0xfa005),
  (['F', 'o', 'r', 'm', 'a', 'l', 'S', 'c', 'r', 'i', 'p', 't', 'G'], .char 0xfa006),
  (['F', 'o', 'r', 'm', 'a', 'l', 'S', 'c', 'r', 'i', 'p', 't', 'H'], .char 0xfa007),
  (['F', 'o', 'r', 'm', 'a', 'l', 'S', 'c', 'r', 'i', 'p', 't', 'I'], .char 0xfa008),
  (['F', 'o', 'r', 'm', 'a', 'l', 'S', 'c', 'r', 'i', 'p', 't', 'J'], .char 0xfa009),
  (['F', 'o', 'r', 'm', 'a', 'l', 'S', 'c', 'r', 'i', 'p', 't', 'K'], .char 0xfa00a),
  (['F', 'o', 'r', 'm', 'a', 'l', 'S', 'c', 'r', 'i', 'p', 't', 'L'], .char 0xfa00b),
  (['F', 'o', 'r', 'm', 'a', 'l', 'S', 'c', 'r', 'i', 'p', 't', 'M'], .char 0xfa00c),
  (['F', 'o', 'r', 'm', 'a', 'l', 'S', 'c', 'r', 'i', 'p', 't', 'N'], .char 0xfa00d),
  (['F', 'o', 'r', 'm', 'a', 'l', 'S', 'c', 'r', 'i', 'p', 't', 'O'], .char 0xfa00e),
  (['F', 'o', 'r', 'm', 'a', 'l', 'S', 'c', 'r', 'i', 'p', 't', 'P'], .char 0xfa00f),
  (['F', 'o', 'r', 'm', 'a', 'l', 'S', 'c', 'r', 'i', 'p', 't', 'Q'], .char 0xfa010),
  (['F', 'o', 'r', 'm', 'a', 'l', 'S', 'c', 'r', 'i', 'p', 't', 'R'], .char 0xfa011),
  (['F', 'o', 'r', 'm', 'a', 'l', 'S', 'c', 'r', 'i', 'p', 't', 'S'], .char 0xfa012),
  (['F', 'o', 'r', 'm', 'a', 'l', 'S', 'c', 'r', 'i', 'p', 't', 'T'], .char 0xfa013),
  (['F', 'o', 'r', 'm', 'a', 'l', 'S', 'c', 'r', 'i', 'p', 't', 'U'], .char 0xfa014),
  (['F', 'o', 'r', 'm', 'a', 'l', 'S', 'c', 'r', 'i', 'p', 't', 'V'], .char 0xfa015),
  (['F', 'o', 'r', 'm', 'a', 'l', 'S', 'c', 'r', 'i', 'p', 't', 'W'], .char 0xfa016),
  (['F', 'o', 'r', 'm', 'a', 'l', 'S', 'c', 'r', 'i', 'p', 't', 'X'], .char 0xfa017),
  (['F', 'o', 'r', 'm', 'a', 'l', 'S', 'c', 'r', 'i', 'p', 't', 'Y'], .char 0xfa018),
  (['F', 'o', 'r', 'm', 'a', 'l', 'S', 'c', 'r', 'i', 'p', 't', 'Z'], .char 0xfa019),
  (['F', 'o', 'r', 'm', 'a', 'l', 'S', 'i', 'g', 'm', 'a'], .char 0xf866),
  (['F', 'o', 'r', 'm', 'a', 'l', 'S', 't', 'i', 'g', 'm', 'a'], .char 0xf87e),
  (['F', 'o', 'r', 'm', 'a', 'l', 'T'], .char 0xf813),
  (['F', 'o', 'r', 'm', 'a', 'l', 'T', 'a', 'u'], .char 0xf867),
  (['F', 'o', 'r', 'm', 'a', 'l', 'T', 'h', 'e', 't', 'a'], .char 0xf85b),
  (['F', 'o', 'r', 'm', 'a', 'l', 'U'], .char 0xf814),
  (['F', 'o', 'r', 'm', 'a', 'l', 'U', 'p', 's', 'i', 'l', 'o', 'n'], .char 0xf868),
  (['F', 'o', 'r', 'm', 'a', 'l', 'V'], .char 0xf815),
  (['F', 'o', 'r', 'm', 'a', 'l', 'W'], .char 0xf816),
  (['F', 'o', 'r', 'm', 'a', 'l', 'X'], .char 0xf817),
  (['F', 'o', 'r', 'm', 'a', 'l', 'X', 'i'], .char 0xf861),
  (['F', 'o', 'r', 'm', 'a', 'l', 'Y'], .char 0xf818),
  (['F', 'o', 'r', 'm', 'a', 'l', 'Z'], .char 0xf819),
  (['F', 'o', 'r', 'm', 'a', 'l', 'Z', 'e', 't', 'a'], .char 0xf859),
  (['F', 'r', 'e', 'a', 'k', 'e', 'd', 'S', 'm', 'i', 'l', 'e', 'y'], .char 0xf721),
  (['F', 'r', 'e', 'e', 'f', 'o', 'r', 'm', 'P', 'r', 'o', 'm', 'p', 't'], .char 0xf351),
  (['F', 'u', 'n', 'c', 't', 'i', 'o', 'n'], .char 0xf4a1),
  (['G', 'a', 'm', 'm', 'a'], .char 0x3b3),
  (['G', 'e', 'm', 'i', 'n', 'i', 'S', 'i', 'g', 'n'], .char 0x264a),
  (['G', 'i', 'm', 'e', 'l'], .char 0x2137),
  (['G', 'o', 't', 'h', 'i', 'c', 'A'], .char 0xf6cc),
  (['G', 'o', 't', 'h', 'i', 'c', 'B'], .char 0xf6cd),
  (['G', 'o', 't', 'h', 'i', 'c', 'C'], .char 0xf6ce),
  (['G', 'o', 't', 'h', 'i', 'c', 'C', 'a', 'p', 'i', 't', 'a', 'l', 'A'], .char 0xf78a),
  (['G', 'o', 't', 'h', 'i', 'c', 'C', 'a', 'p', 'i', 't', 'a', 'l', 'B'], .char 0xf78b),
  (['G', 'o', 't', 'h', 'i', 'c', 'C', 'a', 'p', 'i', 't', 'a', 'l', 'C'], .char 0x212d),
  (['G', 'o', 't', 'h', 'i', 'c', 'C', 'a', 'p', 'i', 't', 'a', 'l', 'D'], .char 0xf78d),
  (['G', 'o', 't', 'h', 'i', 'c', 'C', 'a', 'p', 'i', 't', 'a', 'l', 'E'], .char 0xf78e),
  (['G', 'o', 't', 'h', 'i', 'c', 'C', 'a', 'p', 'i', 't', 'a', 'l', 'F'], .char 0xf78f),
  (['G', 'o', 't', 'h', 'i', 'c', 'C', 'a', 'p', 'i', 't', 'a', 'l', 'G'], .char 0xf790),
  (['G', 'o', 't', 'h', 'i', 'c', 'C', 'a', 'p', 'i', 't', 'a', 'l', 'H'], .char 0x210c),
  (['G', 'o', 't', 'h', 'i', 'c', 'C', 'a', 'p', 'i', 't', 'a', 'l', 'I'], .char 0x2111),
  (['G', 'o', 't', 'h', 'i', 'c', 'C', 'a', 'p', 'i', 't', 'a', 'l', 'J'], .char 0xf793),
  (['G', 'o', 't', 'h', 'i', 'c', 'C', 'a', 'p', 'i', 't', 'a', 'l', 'K'], .char 0xf794),
  (['G', 'o', 't', 'h', 'i', 'c', 'C', 'a', 'p', 'i', 't', 'a', 'l', 'L'], .char 0xf795),
  (['G', 'o', 't', 'h', 'i', 'c', 'C', 'a', 'p', 'i', 't', 'a', 'l', 'M'], .char 0xf796),
  (['G', 'o', 't', 'h', 'i', 'c', 'C', 'a', 'p', 'i', 't', 'a', 'l', 'N'], .char 0xf797),
  (['G', 'o', 't', 'h', 'i', 'c', 'C', 'a', 'p', 'i', 't', 'a', 'l', 'O'], .char 0xf798),
  (['G', 'o', 't', 'h', 'i', 'c', 'C', 'a', 'p', 'i', 't', 'a', 'l', 'P'], .char 0xf799),
  (['G', 'o', 't', 'h', 'i', 'c', 'C', 'a', 'p', 'i', 't', 'a', 'l', 'Q'], .char 0xf79a),
  (['G', 'o', 't', 'h', 'i', 'c', 'C', 'a', 'p', 'i', 't', 'a', 'l', 'R'], .char 0x211c),
  (['G', 'o', 't', 'h', 'i', 'c', 'C', 'a', 'p', 'i', 't', 'a', 'l', 'S'], .char 0xf79c),
  (['G', 'o', 't', 'h', 'i', 'c', 'C', 'a', 'p', 'i', 't', 'a', 'l', 'T'], .char 0xf79d),
  (['G', 'o', 't', 'h', 'i', 'c', 'C', 'a', 'p', 'i', 't', 'a', 'l', 'U'], .char 0xf79e),
  (['G', 'o', 't', 'h', 'i', 'c', 'C', 'a', 'p', 'i', 't', 'a', 'l', 'V'], .char 0xf79f),
  (['G', 'o', 't', 'h', 'i', 'c', 'C', 'a', 'p', 'i', 't', 'a', 'l', 'W'], .char 0xf7a0),
  (['G', 'o', 't', 'h', 'i', 'c', 'C', 'a', 'p', 'i', 't', 'a', 'l', 'X'], .char 0xf7a1),
  (['G', 'o', 't', 'h', 'i', 'c', 'C', 'a', 'p', 'i', 't', 'a', 'l', 'Y'], .char 0xf7a2),
  (['G', 'o', 't', 'h', 'i', 'c', 'C', 'a', 'p', 'i', 't', 'a', 'l', 'Z'], .char 0x2128),
  (['G', 'o', 't', 'h', 'i', 'c', 'D'], .char 0xf6cf),
  (['G', 'o', 't', 'h', 'i', 'c', 'E'], .char 0xf6d0),
  (['G', 'o', 't', 'h', 'i', 'c', 'E', 'i', 'g', 'h', 't'], .char 0xf7ed),
  (['G', 'o', 't', 'h', 'i', 'c', 'F'], .char 0xf6d1),
  (['G', 'o', 't', 'h', 'i', 'c', 'F', 'i', 'v', 'e'], .char 0xf7ea),
  (['G', 'o', 't', 'h', 'i', 'c', 'F', 'o', 'u', 'r'], .char 0xf7e9),
  (['G', 'o', 't', 'h', 'i', 'c', 'G'], .char 0xf6d2),
  (['G', 'o', 't', 'h', 'i', 'c', 'H'], .char 0xf6d3),
  (['G', 'o', 't', 'h', 'i', 'c', 'I'], .char 0xf6d4),
  (['G', 'o', 't', 'h', 'i', 'c', 'J'], .char 0xf6d5),
  (['G', 'o', 't', 'h', 'i', 'c', 'K'], .char 0xf6d6),
  (['G', 'o', 't', 'h', 'i', 'c', 'L'], .char 0xf6d7),
  (['G', 'o', 't', 'h', 'i', 'c', 'M'], .char 0xf6d8),
  (['G', 'o', 't', 'h', 'i', 'c', 'N'], .char 0xf6d9),
  (['G', 'o', 't', 'h', 'i', 'c', 'N', 'i', 'n', 'e'], .char 0xf7ef),
  (['G', 'o', 't', 'h', 'i', 'c', 'O'], .char 0xf6da),
  (['G', 'o', 't', 'h', 'i', 'c', 'O', 'n', 'e'], .char 0xf7e6),
  (['G', 'o', 't', 'h', 'i', 'c', 'P'], .char 0xf6db),
  (['G', 'o', 't', 'h', 'i', 'c', 'Q'], .char 0xf6dc),
  (['G', 'o', 't', 'h', 'i', 'c', 'R'], .char 0xf6dd),
  (['G', 'o', 't', 'h', 'i', 'c', 'S'], .char 0xf6de),
  (['G', 'o', 't', 'h', 'i', 'c', 'S', 'e', 'v', 'e', 'n'], .char 0xf7ec),
  (['G', 'o', 't', 'h', 'i', 'c', 'S', 'i', 'x'], .char 0xf7eb),
  (['G', 'o', 't', 'h', 'i', 'c', 'T'], .char 0xf6df),
  (['G', 'o', 't', 'h', 'i', 'c', 'T', 'h', 'r', 'e', 'e'], .char 0xf7e8),
  (['G', 'o', 't', 'h', 'i', 'c', 'T', 'w', 'o'], .char 0xf7e7),
  (['G', 'o', 't', 'h', 'i', 'c', 'U'], .char 0xf6e0),
  (['G', 'o', 't', 'h', 'i', 'c', 'V'], .char 0xf6e1),
  (['G', 'o', 't', 'h', 'i', 'c', 'W'], .char 0xf6e2),
  (['G', 'o', 't', 'h', 'i', 'c', 'X'], .char 0xf6e3),
  (['G', 'o', 't', 'h', 'i', 'c', 'Y'], .char 0xf6e4),
  (['G', 'o', 't', 'h', 'i', 'c', 'Z'], .char 0xf6e5),
  (['G', 'o', 't', 'h', 'i', 'c', 'Z', 'e', 'r', 'o'], .char 0xf7e5),
  (['G', 'r', 'a', 'y', 'C', 'i', 'r', 'c', 'l', 'e'], .char 0xf753),
  (['G', 'r', 'a', 'y', 'S', 'q', 'u', 'a', 'r', 'e'], .char 0xf752),
  (['G', 'r', 'e', 'a', 't', 'e', 'r', 'E', 'q', 'u', 'a', 'l'], .char 0x2265),
  (['G', 'r', 'e', 'a', 't', 'e', 'r', 'E', 'q', 'u', 'a', 'l', 'L', 'e', 's', 's'], .char 0x22db),
  (['G', 'r', 'e', 'a', 't', 'e', 'r', 'F', 'u', 'l', 'l', 'E', 'q', 'u', 'a', 'l'], .char 0x2267),
  (['G', 'r', 'e', 'a', 't', 'e', 'r', 'G', 'r', 'e', 'a', 't', 'e', 'r'], .char 0x226b),
  (['G', 'r', 'e', 'a', 't', 'e', 'r', 'L', 'e', 's', 's'], .char 0x2277),
  (['G', 'r', 'e', 'a', 't', 'e', 'r', 'S', 'l', 'a', 'n', 't', 'E', 'q', 'u', 'a', 'l'], .char 0x2a7e),
  (['G', 'r', 'e', 'a', 't', 'e', 'r', 'T', 'i', 'l', 'd', 'e'], .char 0x2273),
  (['H', 'B', 'a', 'r'], .char 0x210f),
  (['H', 'a', 'c', 'e', 'k'], .char 0x2c7),
  (['H', 'a', 'p', 'p', 'y', 'S', 'm', 'i', 'l', 'e', 'y'], .char 0x263a),
  (['H', 'e', 'a', 'r', 't', 'S', 'u', 'i', 't'], .char 0x2661),
  (['H', 'e', 'r', 'm', 'i', 't', 'i', 'a', 'n', 'C', 'o', 'n', 'j', 'u', 'g', 'a', 't', 'e'], .char 0xf3ce),
  (['H', 'o', 'r', 'i', 'z', 'o', 'n', 't', 'a', 'l', 'L', 'i', 'n', 'e'], .char 0x2500),
  (['H', 'u', 'm', 'p', 'D', 'o', 'w', 'n', 'H', 'u', 'm', 'p'], .char 0x224e),
  (['H', 'u', 'm', 'p', 'E', 'q', 'u', 'a', 'l'], .char 0x224f),
  (['H', 'y', 'p', 'h', 'e', 'n'], .char 0x2010),
  (['I', 'A', 'c', 'u', 't', 'e'], .char 0xed),
  (['I', 'C', 'u', 'p'], .char 0x12d),
  (['I', 'D', 'o', 'u', 'b', 'l', 'e', 'D', 'o', 't'], .char 0xef),
  (['I', 'G', 'r', 'a', 'v', 'e'], .char 0xec),
  (['I', 'H', 'a', 't'], .char 0xee),
  (['I', 'm', 'a', 'g', 'i', 'n', 'a', 'r', 'y', 'I'], .char 0xf74e),
  (['I', 'm', 'a', 'g', 'i', 'n', 'a', 'r', 'y', 'J'], .char 0xf74f),
  (['I', 'm', 'p', 'l', 'i', 'c', 'i', 't', 'P', 'l', 'u', 's'], .char 0xf39e),
  (['I', 'm', 'p', 'l', 'i', 'e', 's'], .char 0xf523),
  (['I', 'n', 'd', 'e', 'n', 't', 'i', 'n', 'g', 'N', 'e', 'w', 'L', 'i', 'n', 'e'], .char 0xf3a3),
  (['I', 'n', 'f', 'i', 'n', 'i', 't', 'y'], .char 0x221e),
  (['I', 'n', 'l', 'i', 'n', 'e', 'P', 'a', 'r', 't'], .char 0xf51e),
  (['I', 'n', 't', 'e', 'g', 'r', 'a', 'l'], .char 0x222b),
  (['I', 'n', 't', 'e', 'r', 's', 'e', 'c', 't', 'i', 'o', 'n'], .char 0x22c2),
  (['I', 'n', 'v', 'i', 's', 'i', 'b', 'l', 'e', 'A', 'p', 'p', 'l', 'i', 'c', 'a', 't', 'i', 'o', 'n'], .char 0xf76d),
  (['I', 'n', 'v', 'i', 's', 'i', 'b', 'l', 'e', 'C', 'o', 'm', 'm', 'a'], .char 0xf765),
  (['I', 'n', 'v', 'i', 's', 'i', 'b', 'l', 'e', 'P', 'o', 's', 't', 'f', 'i', 'x', 'S', 'c', 'r', 'i', 'p', 't', 'B', 'a', 's', 'e'], .char 0xf3b4),
  (['I', 'n', 'v', 'i', 's', 'i', 'b', 'l', 'e', 'P', 'r', 'e', 'f', 'i', 'x', 'S', 'c', 'r', 'i', 'p', 't', 'B', 'a', 's', 'e'], .char 0xf3b3),
  (['I', 'n', 'v', 'i', 's', 'i', 'b', 'l', 'e', 'S', 'p', 'a', 'c', 'e'], .char 0xf360),
  (['I', 'n', 'v', 'i', 's', 'i', 'b', 'l', 'e', 'T', 'i', 'm', 'e', 's'], .char 0x2062),
  (['I', 'o', 't', 'a'], .char 0x3b9),
  (['J', 'u', 'p', 'i', 't', 'e', 'r'], .char 0x2643),
  (['K', 'a', 'p', 'p', 'a'], .char 0x3ba),
  (['K', 'e', 'r', 'n', 'e', 'l', 'I', 'c', 'o', 'n'], .char 0xf756),
  (['K', 'e', 'y', 'B', 'a', 'r'], .char 0xf7d3),
  (['K', 'o', 'p', 'p', 'a'], .char 0x3df),
  (['L', 'S', 'l', 'a', 's', 'h'], .char 0x142),
  (['L', 'a', 'm', 'b', 'd', 'a'], .char 0x3bb),
  (['L', 'a', 's', 't', 'P', 'a', 'g', 'e'], .char 0xf7fb),
  (['L', 'e', 'f', 't', 'A', 'n', 'g', 'l', 'e', 'B', 'r', 'a', 'c', 'k', 'e', 't'], .char 0x2329),
  (['L', 'e', 'f', 't', 'A', 'r', 'r', 'o', 'w'], .char 0x2190),
  (['L', 'e', 'f', 't', 'A', 'r', 'r', 'o', 'w', 'B', 'a', 'r'], .char 0x21e4),
  (['L', 'e', 'f', 't', 'A', 'r', 'r', 'o', 'w', 'R', 'i', 'g', 'h', 't', 'A', 'r', 'r', 'o', 'w'], .char 0x21c6),
  (['L', 'e', 'f', 't', 'A', 's', 's', 'o', 'c', 'i', 'a', 't', 'i', 'o', 'n'], .char 0xf113),
  (['L', 'e', 'f', 't', 'B', 'r', 'a', 'c', 'k', 'e', 't', 'i', 'n', 'g', 'B', 'a', 'r'], .char 0xf603),
  (['L', 'e', 'f', 't', 'C', 'e', 'i', 'l', 'i', 'n', 'g'], .char 0x2308),
  (['L', 'e', 'f', 't', 'D', 'o', 'u', 'b', 'l', 'e', 'B', 'r', 'a', 'c', 'k', 'e', 't'], .char 0x301a),
  (['L', 'e', 'f', 't', 'D', 'o', 'u', 'b', 'l', 'e', 'B', 'r', 'a', 'c', 'k', 'e', 't', 'i', 'n', 'g', 'B', 'a', 'r'], .char 0xf605),
  (['L', 'e', 'f', 't', 'D', 'o', 'w', 'n', 'T', 'e', 'e', 'V', 'e', 'c', 't', 'o', 'r'], .char 0x2961),
  (['L', 'e', 'f', 't', 'D', 'o', 'w', 'n', 'V', 'e', 'c', 't', 'o', 'r'], .char 0x21c3),
  (['L', 'e', 'f', 't', 'D', 'o', 'w', 'n', 'V', 'e', 'c', 't', 'o', 'r', 'B', 'a', 'r'], .char 0x2959),
  (['L', 'e', 'f', 't', 'F', 'l', 'o', 'o', 'r'], .char 0x230a),
  (['L', 'e', 'f', 't', 'G', 'u', 'i', 'l', 'l', 'e', 'm', 'e', 't'], .char 0xab),
  (['L', 'e', 'f', 't', 'M', 'o', 'd', 'i', 'f', 'i', 'e', 'd'], .char 0xf76b),
  (['L', 'e', 'f', 't', 'P', 'o', 'i', 'n', 't', 'e', 'r'], .char 0x25c2),
  (['L', 'e', 'f', 't', 'R', 'i', 'g', 'h', 't', 'A', 'r', 'r', 'o', 'w'], .char 0x2194),
  (['L', 'e', 'f', 't', 'R', 'i', 'g', 'h', 't', 'V', 'e', 'c', 't', 'o', 'r'], .char 0x294e),
  (['L', 'e', 'f', 't', 'S', 'k', 'e', 'l', 'e', 't', 'o', 'n'], .char 0xf761),
  (['L', 'e', 'f', 't', 'T', 'e', 'e'], .char 0x22a3),
  (['L', 'e', 'f', 't', 'T', 'e', 'e', 'A', 'r', 'r', 'o', 'w'], .char 0x21a4),
  (['L', 'e', 'f', 't', 'T', 'e', 'e', 'V', 'e', 'c', 't', 'o', 'r'], .char 0x295a),
  (['L', 'e', 'f', 't', 'T', 'r', 'i', 'a', 'n', 'g', 'l', 'e'], .char 0x22b2),
  (['L', 'e', 'f', 't', 'T', 'r', 'i', 'a', 'n', 'g', 'l', 'e', 'B', 'a', 'r'], .char 0x29cf),
  (['L', 'e', 'f', 't', 'T', 'r', 'i', 'a', 'n', 'g', 'l', 'e', 'E', 'q', 'u', 'a', 'l'], .char 0x22b4),
  (['L', 'e', 'f', 't', 'U', 'p', 'D', 'o', 'w', 'n', 'V', 'e', 'c', 't', 'o', 'r'], .char 0x2951),
  (['L', 'e', 'f', 't', 'U', 'p', 'T', 'e', 'e', 'V', 'e', 'c', 't', 'o', 'r'], .char 0x2960),
  (['L', 'e', 'f', 't', 'U', 'p', 'V', 'e', 'c', 't', 'o', 'r'], .char 0x21bf),
  (['L', 'e', 'f', 't', 'U', 'p', 'V', 'e', 'c', 't', 'o', 'r', 'B', 'a', 'r'], .char 0x2958),
  (['L', 'e', 'f', 't', 'V', 'e', 'c', 't', 'o', 'r'], .char 0x21bc),
  (['L', 'e', 'f', 't', 'V', 'e', 'c', 't', 'o', 'r', 'B', 'a', 'r'], .char 0x2952),
  (['L', 'e', 'o', 'S', 'i', 'g', 'n'], .char 0x264c),
  (['L', 'e', 's', 's', 'E', 'q', 'u', 'a', 'l'], .char 0x2264),
  (['L', 'e', 's', 's', 'E', 'q', 'u', 'a', 'l', 'G', 'r', 'e', 'a', 't', 'e', 'r'], .char 0x22da),
  (['L', 'e', 's', 's', 'F', 'u', 'l', 'l', 'E', 'q', 'u', 'a', 'l'], .char 0x2266),
  (['L', 'e', 's', 's', 'G', 'r', 'e', 'a', 't', 'e', 'r'], .char 0x2276),
  (['L', 'e', 's', 's', 'L', 'e', 's', 's'], .char 0x226a),
  (['L', 'e', 's', 's', 'S', 'l', 'a', 'n', 't', 'E', 'q', 'u', 'a', 'l'], .char 0x2a7d),
  (['L', 'e', 's', 's', 'T', 'i', 'l', 'd', 'e'], .char 0x2272),
  (['L', 'e', 't', 't', 'e', 'r', 'S', 'p', 'a', 'c', 'e'], .char 0xf754),
  (['L', 'i', 'b', 'r', 'a', 'S', 'i', 'g', 'n'], .char 0x264e),
  (['L', 'i', 'g', 'h', 't', 'B', 'u', 'l', 'b'], .char 0xf723),
  (['L', 'i', 'm', 'i', 't'], .char 0xf438),
  (['L', 'i', 'n', 'e', 'S', 'e', 'p', 'a', 'r', 'a', 't', 'o', 'r'], .char 0x2028),
  (['L', 'o', 'n', 'g', 'D', 'a', 's', 'h'], .char 0x2014),
  (['L', 'o', 'n', 'g', 'E', 'q', 'u', 'a', 'l'], .char 0xf7d9),
  (['L', 'o', 'n', 'g', 'L', 'e', 'f', 't', 'A', 'r', 'r', 'o', 'w'], .char 0x27f5),
  (['L', 'o', 'n', 'g', 'L', 'e', 'f', 't', 'R', 'i', 'g', 'h', 't', 'A', 'r', 'r', 'o', 'w'], .char 0x27f7),
  (['L', 'o', 'n', 'g', 'R', 'i', 'g', 'h', 't', 'A', 'r', 'r', 'o', 'w'], .char 0x27f6),
  (['L', 'o', 'w', 'e', 'r', 'L', 'e', 'f', 't', 'A', 'r', 'r', 'o', 'w'], .char 0x2199),
  (['L', 'o', 'w', 'e', 'r', 'R', 'i', 'g', 'h', 't', 'A', 'r', 'r', 'o', 'w'], .char 0x2198),
  (['M', 'a', 'r', 's'], .char 0x2642),
  (['M', 'a', 't', 'h', 'e', 'm', 'a', 't', 'i', 'c', 'a', 'I', 'c', 'o', 'n'], .char 0xf757),
  (['M', 'a', 'x', 'L', 'i', 'm', 'i', 't'], .char 0xf439),
  (['M', 'e', 'a', 's', 'u', 'r', 'e', 'd', 'A', 'n', 'g', 'l', 'e'], .char 0x2221),
  (['M', 'e', 'd', 'i', 'u', 'm', 'S', 'p', 'a', 'c', 'e'], .char 0x205f),
  (['M', 'e', 'r', 'c', 'u', 'r', 'y'], .char 0x263f),
  (['M', 'h', 'o'], .char 0x2127),
  (['M', 'i', 'c', 'r', 'o'], .char 0xb5),
  (['M', 'i', 'n', 'L', 'i', 'm', 'i', 't'], .char 0xf43a),
  (['M', 'i', 'n', 'u', 's'], .char 0x2212),
  (['M', 'i', 'n', 'u', 's', 'P', 'l', 'u', 's'], .char 0x2213),
  (['M', 'o', 'd', '1', 'K', 'e', 'y'], .char 0xf7d6),
  (['M', 'o', 'd', '2', 'K', 'e', 'y'], .char 0xf7d7),
  (['M', 'o', 'o', 'n'], .char 0x263e),
  (['M', 'u'], .char 0x3bc),
  (['N', 'H', 'a', 'c', 'e', 'k'], .char 0x148),
  (['N', 'T', 'i', 'l', 'd', 'e'], .char 0xf1),
  (['N', 'a', 'n', 'd'], .char 0x22bc),
  (['N', 'a', 't', 'u', 'r', 'a', 'l'], .char 0x266e),
  (['N', 'e', 'g', 'a', 't', 'i', 'v', 'e', 'M', 'e', 'd', 'i', 'u', 'm', 'S', 'p', 'a', 'c', 'e'], .char 0xf383),
  (['N', 'e', 'g', 'a', 't', 'i', 'v', 'e', 'T', 'h', 'i', 'c', 'k', 'S', 'p', 'a', 'c', 'e'], .char 0xf384),
  (['N', 'e', 'g', 'a', 't', 'i', 'v', 'e', 'T', 'h', 'i', 'n', 'S', 'p', 'a', 'c', 'e'], .char 0xf382),
  (['N', 'e', 'g', 'a', 't', 'i', 'v', 'e', 'V', 'e', 'r', 'y', 'T', 'h', 'i', 'n', 'S', 'p', 'a', 'c', 'e'], .char 0xf380),
  (['N', 'e', 'p', 't', 'u', 'n', 'e'], .char 0x2646),
  (['N', 'e', 's', 't', 'e', 'd', 'G', 'r', 'e', 'a', 't', 'e', 'r', 'G', 'r', 'e', 'a', 't', 'e', 'r'], .char 0x2aa2),
  (['N', 'e', 's', 't', 'e', 'd', 'L', 'e', 's', 's', 'L', 'e', 's', 's'], .char 0x2aa1),
  (['N', 'e', 'u', 't', 'r', 'a', 'l', 'S', 'm', 'i', 'l', 'e', 'y'], .char 0xf722),
  (['N', 'e', 'w', 'L', 'i', 'n', 'e'], .char 0xa),
  (['N', 'o', 'B', 'r', 'e', 'a', 'k'], .char 0x2060),
  (['N', 'o', 'n', 'B', 'r', 'e', 'a', 'k', 'i', 'n', 'g', 'S', 'p', 'a', 'c', 'e'], .char 0xa0),
  (['N', 'o', 'r'], .char 0x22bd),
  (['N', 'o', 't'], .char 0xac),
  (['N', 'o', 't', 'C', 'o', 'n', 'g', 'r', 'u', 'e', 'n', 't'], .char 0x2262),
  (['N', 'o', 't', 'C', 'u', 'p', 'C', 'a', 'p'], .char 0x226d),
  (['N', 'o', 't', 'D', 'o', 'u', 'b', 'l', 'e', 'V', 'e', 'r', 't', 'i', 'c', 'a', 'l', 'B', 'a', 'r'], .char 0x2226),
  (['N', 'o', 't', 'E', 'l', 'e', 'm', 'e', 'n', 't'], .char 0x2209),
  (['N', 'o', 't', 'E', 'q', 'u', 'a', 'l'], .char 0x2260),
  (['N', 'o', 't', 'E', 'q', 'u', 'a', 'l', 'T', 'i', 'l', 'd', 'e'], .char 0xf400),
  (['N', 'o', 't', 'E', 'x', 'i', 's', 't', 's'], .char 0x2204),
  (['N', 'o', 't', 'G', 'r', 'e', 'a', 't', 'e', 'r'], .char 0x226f),
  (['N', 'o', 't', 'G', 'r', 'e', 'a', 't', 'e', 'r', 'E', 'q', 'u', 'a', 'l'], .char 0x2271),
  (['N', 'o', 't', 'G', 'r', 'e', 'a', 't', 'e', 'r', 'F', 'u', 'l', 'l', 'E', 'q', 'u', 'a', 'l'], .char 0x2269),
  (['N', 'o', 't', 'G', 'r', 'e', 'a', 't', 'e', 'r', 'G', 'r', 'e', 'a', 't', 'e', 'r'], .char 0xf427),
  (['N', 'o', 't', 'G', 'r', 'e', 'a', 't', 'e', 'r', 'L', 'e', 's', 's'], .char 0x2279),
  (['N', 'o', 't', 'G', 'r', 'e', 'a', 't', 'e', 'r', 'S', 'l', 'a', 'n', 't', 'E', 'q', 'u', 'a', 'l'], .char 0xf429),
  (['N', 'o', 't', 'G', 'r', 'e', 'a', 't', 'e', 'r', 'T', 'i', 'l', 'd', 'e'], .char 0x2275),
  (['N', 'o', 't', 'H', 'u', 'm', 'p', 'D', 'o', 'w', 'n', 'H', 'u', 'm', 'p'], .char 0xf402),
  (['N', 'o', 't', 'H', 'u', 'm', 'p', 'E', 'q', 'u', 'a', 'l'], .char 0xf401),
  (['N', 'o', 't', 'L', 'e', 'f', 't', 'T', 'r', 'i', 'a', 'n', 'g', 'l', 'e'], .char 0x22ea),
  (['N', 'o', 't', 'L', 'e', 'f', 't', 'T', 'r', 'i', 'a', 'n', 'g', 'l', 'e', 'B', 'a', 'r'], .char 0xf412),
  (['N', 'o', 't', 'L', 'e', 'f', 't', 'T', 'r', 'i', 'a', 'n', 'g', 'l', 'e', 'E', 'q', 'u', 'a', 'l'], .char 0x22ec),
  (['N', 'o', 't', 'L', 'e', 's', 's'], .char 0x226e),
  (['N', 'o', 't', 'L', 'e', 's', 's', 'E', 'q', 'u', 'a', 'l'], .char 0x2270),
  (['N', 'o', 't', 'L', 'e', 's', 's', 'F', 'u', 'l', 'l', 'E', 'q', 'u', 'a', 'l'], .char 0x2268),
  (['N', 'o', 't', 'L', 'e', 's', 's', 'G', 'r', 'e', 'a', 't', 'e', 'r'], .char 0x2278),
  (['N', 'o', 't', 'L', 'e', 's', 's', 'L', 'e', 's', 's'], .char 0xf422),
  (['N', 'o', 't', 'L', 'e', 's', 's', 'S', 'l', 'a', 'n', 't', 'E', 'q', 'u', 'a', 'l'], .char 0xf424),
  (['N', 'o', 't', 'L', 'e', 's', 's', 'T', 'i', 'l', 'd', 'e'], .char 0x2274),
  (['N', 'o', 't', 'N', 'e', 's', 't', 'e', 'd', 'G', 'r', 'e', 'a', 't', 'e', 'r', 'G', 'r', 'e', 'a', 't', 'e', 'r'], .char 0xf428),
  (['N', 'o', 't', 'N', 'e', 's', 't', 'e', 'd', 'L', 'e', 's', 's', 'L', 'e', 's', 's'], .char 0xf423),
  (['N', 'o', 't', 'P', 'r', 'e', 'c', 'e', 'd', 'e', 's'], .char 0x2280),
  (['N', 'o', 't', 'P', 'r', 'e', 'c', 'e', 'd', 'e', 's', 'E', 'q', 'u', 'a', 'l'], .char 0xf42b),
  (['N', 'o', 't', 'P', 'r', 'e', 'c', 'e', 'd', 'e', 's', 'S', 'l', 'a', 'n', 't', 'E', 'q', 'u', 'a', 'l'], .char 0x22e0),
  (['N', 'o', 't', 'P', 'r', 'e', 'c', 'e', 'd', 'e', 's', 'T', 'i', 'l', 'd', 'e'], .char 0x22e8),
  (['N', 'o', 't', 'R', 'e', 'v', 'e', 'r', 's', 'e', 'E', 'l', 'e', 'm', 'e', 'n', 't'], .char 0x220c),
  (['N', 'o', 't', 'R', 'i', 'g', 'h', 't', 'T', 'r', 'i', 'a', 'n', 'g', 'l', 'e'], .char 0x22eb),
  (['N', 'o', 't', 'R', 'i', 'g', 'h', 't', 'T', 'r', 'i', 'a', 'n', 'g', 'l', 'e', 'B', 'a', 'r'], .char 0xf413),
  (['N', 'o', 't', 'R', 'i', 'g', 'h', 't', 'T', 'r', 'i', 'a', 'n', 'g', 'l', 'e', 'E', 'q', 'u', 'a', 'l'], .char 0x22ed),
  (['N', 'o', 't', 'S', 'q', 'u', 'a', 'r', 'e', 'S', 'u', 'b', 's', 'e', 't'], .char 0xf42e),
  (['N', 'o', 't', 'S', 'q', 'u', 'a', 'r', 'e', 'S', 'u', 'b', 's', 'e', 't', 'E', 'q', 'u', 'a', 'l'], .char 0x22e2),
  (['N', 'o', 't', 'S', 'q', 'u', 'a', 'r', 'e', 'S', 'u', 'p', 'e', 'r', 's', 'e', 't'], .char 0xf42f),
  (['N', 'o', 't', 'S', 'q', 'u', 'a', 'r', 'e', 'S', 'u', 'p', 'e', 'r', 's', 'e', 't', 'E', 'q', 'u', 'a', 'l'], .char 0x22e3),
  (['N', 'o', 't', 'S', 'u', 'b', 's', 'e', 't'], .char 0x2284),
  (['N', 'o', 't', 'S', 'u', 'b', 's', 'e', 't', 'E', 'q', 'u', 'a', 'l'], .char 0x2288),
  (['N', 'o', 't', 'S', 'u', 'c', 'c', 'e', 'e', 'd', 's'], .char 0x2281),
  (['N', 'o', 't', 'S', 'u', 'c', 'c', 'e', 'e', 'd', 's', 'E', 'q', 'u', 'a', 'l'], .char 0xf42d),
  (['N', 'o', 't', 'S', 'u', 'c', 'c', 'e', 'e', 'd', 's', 'S', 'l', 'a', 'n', 't', 'E', 'q', 'u', 'a', 'l'], .char 0x22e1),
  (['N', 'o', 't', 'S', 'u', 'c', 'c', 'e', 'e', 'd', 's', 'T', 'i', 'l', 'd', 'e'], .char 0x22e9),
  (['N', 'o', 't', 'S', 'u', 'p', 'e', 'r', 's', 'e', 't'], .char 0x2285),
  (['N', 'o', 't', 'S', 'u', 'p', 'e', 'r', 's', 'e', 't', 'E', 'q', 'u', 'a', 'l'], .char 0x2289),
  (['N', 'o', 't', 'T', 'i', 'l', 'd', 'e'], .char 0x2241),
  (['N', 'o', 't', 'T', 'i', 'l', 'd', 'e', 'E', 'q', 'u', 'a', 'l'], .char 0x2244),
  (['N', 'o', 't', 'T', 'i', 'l', 'd', 'e', 'F', 'u', 'l', 'l', 'E', 'q', 'u', 'a', 'l'], .char 0x2247),
  (['N', 'o', 't', 'T', 'i', 'l', 'd', 'e', 'T', 'i', 'l', 'd', 'e'], .char 0x2249),
  (['N', 'o', 't', 'V', 'e', 'r', 't', 'i', 'c', 'a', 'l', 'B', 'a', 'r'], .char 0xf3d1),
  (['N', 'u'], .char 0x3bd),
  (['N', 'u', 'l', 'l'], .char 0xf3a0),
  (['N', 'u', 'm', 'b', 'e', 'r', 'C', 'o', 'm', 'm', 'a'], .char 0xf7fc),
  (['N', 'u', 'm', 'b', 'e', 'r', 'S', 'i', 'g', 'n'], .char 0xf724),
  (['O', 'A', 'c', 'u', 't', 'e'], .char 0xf3),
  (['O', 'D', 'o', 'u', 'b', 'l', 'e', 'A', 'c', 'u', 't', 'e'], .char 0x151),
  (['O', 'D', 'o', 'u', 'b', 'l', 'e', 'D', 'o', 't'], .char 0xf6),
  (['O', 'E'], .char 0x153),
  (['O', 'G', 'r', 'a', 'v', 'e'], .char 0xf2),
  (['O', 'H', 'a', 't'], .char 0xf4),
  (['O', 'S', 'l', 'a', 's', 'h'], .char 0xf8),
  (['O', 'T', 'i', 'l', 'd', 'e'], .char 0xf5),
  (['O', 'm', 'e', 'g', 'a'], .char 0x3c9),
  (['O', 'm', 'i', 'c', 'r', 'o', 'n'], .char 0x3bf),
  (['O', 'p', 'e', 'n', 'C', 'u', 'r', 'l', 'y', 'D', 'o', 'u', 'b', 'l', 'e', 'Q', 'u', 'o', 't', 'e'], .char 0x201c),
  (['O', 'p', 'e', 'n', 'C', 'u', 'r', 'l', 'y', 'Q', 'u', 'o', 't', 'e'], .char 0x2018),
  (['O', 'p', 't', 'i', 'o', 'n', 'K', 'e', 'y'], .char 0xf7d2),
  (['O', 'r'], .char 0x2228),
  (['O', 'v', 'e', 'r', 'B', 'r', 'a', 'c', 'e'], .char 0xfe37),
  (['O', 'v', 'e', 'r', 'B', 'r', 'a', 'c', 'k', 'e', 't'], .char 0x23b4),
  (['O', 'v', 'e', 'r', 'P', 'a', 'r', 'e', 'n', 't', 'h', 'e', 's', 'i', 's'], .char 0xfe35),
  (['P', 'a', 'g', 'e', 'B', 'r', 'e', 'a', 'k', 'A', 'b', 'o', 'v', 'e'], .char 0xf3bd),
  (['P', 'a', 'g', 'e', 'B', 'r', 'e', 'a', 'k', 'B', 'e', 'l', 'o', 'w'], .char 0xf3be),
  (['P', 'a', 'r', 'a', 'g', 'r', 'a', 'p', 'h'], .char 0xb6),
  (['P', 'a', 'r', 'a', 'g', 'r', 'a', 'p', 'h', 'S', 'e', 'p', 'a', 'r', 'a', 't', 'o', 'r'], .char 0x2029),
  (['P', 'a', 'r', 't', 'i', 'a', 'l', 'D'], .char 0x2202),
  (['P', 'e', 'r', 'm', 'u', 't', 'a', 't', 'i', 'o', 'n', 'P', 'r', 'o', 'd', 'u', 'c', 't'], .char 0xf3de),
  (['P', 'e', 'r', 'p', 'e', 'n', 'd', 'i', 'c', 'u', 'l', 'a', 'r'], .char 0x27c2),
  (['P', 'h', 'i'], .char 0x3d5),
  (['P', 'i'], .char 0x3c0),
  (['P', 'i', 'e', 'c', 'e', 'w', 'i', 's', 'e'], .char 0xf361),
  (['P', 'i', 's', 'c', 'e', 's', 'S', 'i', 'g', 'n'], .char 0x2653),
  (['P', 'l', 'a', 'c', 'e', 'h', 'o', 'l', 'd', 'e', 'r'], .char 0xf528),
  (['P', 'l', 'u', 's', 'M', 'i', 'n', 'u', 's'], .char 0xb1),
  (['P', 'l', 'u', 't', 'o'], .char 0x2647),
  (['P', 'r', 'e', 'c', 'e', 'd', 'e', 's'], .char 0x227a),
  (['P', 'r', 'e', 'c', 'e', 'd', 'e', 's', 'E', 'q', 'u', 'a', 'l'], .char 0x2aaf),
  (['P', 'r', 'e', 'c', 'e', 'd', 'e', 's', 'S', 'l', 'a', 'n', 't', 'E', 'q', 'u', 'a', 'l'], .char 0x227c),
  (['P', 'r', 'e', 'c', 'e', 'd', 'e', 's', 'T', 'i', 'l', 'd', 'e'], .char 0x227e),
  (['P', 'r', 'i', 'm', 'e'], .char 0x2032),
  (['P', 'r', 'o', 'b', 'a', 'b', 'i', 'l', 'i', 't', 'y', 'P', 'r'], .char 0xf3dc),
  (['P', 'r', 'o', 'd', 'u', 'c', 't'], .char 0x220f),
  (['P', 'r', 'o', 'p', 'o', 'r', 't', 'i', 'o', 'n'], .char 0x2237),
  (['P', 'r', 'o', 'p', 'o', 'r', 't', 'i', 'o', 'n', 'a', 'l'], .char 0x221d),
  (['P', 's', 'i'], .char 0x3c8),
  (['Q', 'u', 'a', 'r', 't', 'e', 'r', 'N', 'o', 't', 'e'], .char 0x2669),
  (['R', 'H', 'a', 'c', 'e', 'k'], .char 0x159),
  (['R', 'a', 'w', 'A', 'm', 'p', 'e', 'r', 's', 'a', 'n', 'd'], .char 0x26),
  (['R', 'a', 'w', 'A', 't'], .char 0x40),
  (['R', 'a', 'w', 'B', 'a', 'c', 'k', 'q', 'u', 'o', 't', 'e'], .char 0x60),
  (['R', 'a', 'w', 'B', 'a', 'c', 'k', 's', 'l', 'a', 's', 'h'], .metaBackslash),
  (['R', 'a', 'w', 'C', 'o', 'l', 'o', 'n'], .char 0x3a),
  (['R', 'a', 'w', 'C', 'o', 'm', 'm', 'a'], .char 0x2c),
  (['R', 'a', 'w', 'D', 'a', 's', 'h'], .char 0x2d),
  (['R', 'a', 'w', 'D', 'o', 'l', 'l', 'a', 'r'], .char 0x24),
  (['R', 'a', 'w', 'D', 'o', 't'], .char 0x2e),
  (['R', 'a', 'w', 'D', 'o', 'u', 'b', 'l', 'e', 'Q', 'u', 'o', 't', 'e'], .metaDoubleQuote),
  (['R', 'a', 'w', 'E', 'q', 'u', 'a', 'l'], .char 0x3d),
  (['R', 'a', 'w', 'E', 's', 'c', 'a', 'p', 'e'], .char 0x1b),
  (['R', 'a', 'w', 'E', 'x', 'c', 'l', 'a', 'm', 'a', 't', 'i', 'o', 'n'], .char 0x21),
  (['R', 'a', 'w', 'G', 'r', 'e', 'a', 't', 'e', 'r'], .char 0x3e),
  (['R', 'a', 'w', 'L', 'e', 'f', 't', 'B', 'r', 'a', 'c', 'e'], .char 0x7b),
  (['R', 'a', 'w', 'L', 'e', 'f', 't', 'B', 'r', 'a', 'c', 'k', 'e', 't'], .char 0x5b),
  (['R', 'a', 'w', 'L', 'e', 'f', 't', 'P', 'a', 'r', 'e', 'n', 't', 'h', 'e', 's', 'i', 's'], .char 0x28),
  (['R', 'a', 'w', 'L', 'e', 's', 's'], .char 0x3c),
  (['R', 'a', 'w', 'N', 'u', 'm', 'b', 'e', 'r', 'S', 'i', 'g', 'n'], .char 0x23),
  (['R', 'a', 'w', 'P', 'e', 'r', 'c', 'e', 'n', 't'], .char 0x25),
  (['R', 'a', 'w', 'P', 'l', 'u', 's'], .char 0x2b),
  (['R', 'a', 'w', 'Q', 'u', 'e', 's', 't', 'i', 'o', 'n'], .char 0x3f),
  (['R', 'a', 'w', 'Q', 'u', 'o', 't', 'e'], .char 0x27),
  (['R', 'a', 'w', 'R', 'e', 't', 'u', 'r', 'n'], .char 0xd),
  (['R', 'a', 'w', 'R', 'i', 'g', 'h', 't', 'B', 'r', 'a', 'c', 'e'], .char 0x7d),
  (['R', 'a', 'w', 'R', 'i', 'g', 'h', 't', 'B', 'r', 'a', 'c', 'k', 'e', 't'], .char 0x5d),
  (['R', 'a', 'w', 'R', 'i', 'g', 'h', 't', 'P', 'a', 'r', 'e', 'n', 't', 'h', 'e', 's', 'i', 's'], .char 0x29),
  (['R', 'a', 'w', 'S', 'e', 'm', 'i', 'c', 'o', 'l', 'o', 'n'], .char 0x3b),
  (['R', 'a', 'w', 'S', 'l', 'a', 's', 'h'], .char 0x2f),
  (['R', 'a', 'w', 'S', 'p', 'a', 'c', 'e'], .char 0x20),
  (['R', 'a', 'w', 'S', 't', 'a', 'r'], .char 0x2a),
  (['R', 'a', 'w', 'T', 'a', 'b'], .char 0x9),
  (['R', 'a', 'w', 'T', 'i', 'l', 'd', 'e'], .char 0x7e),
  (['R', 'a', 'w', 'U', 'n', 'd', 'e', 'r', 's', 'c', 'o', 'r', 'e'], .char 0x5f),
  (['R', 'a', 'w', 'V', 'e', 'r', 't', 'i', 'c', 'a', 'l', 'B', 'a', 'r'], .char 0x7c),
  (['R', 'a', 'w', 'W', 'e', 'd', 'g', 'e'], .char 0x5e),
  (['R', 'e', 'g', 'i', 's', 't', 'e', 'r', 'e', 'd', 'T', 'r', 'a', 'd', 'e', 'm', 'a', 'r', 'k'], .char 0xae),
  (['R', 'e', 't', 'u', 'r', 'n', 'I', 'n', 'd', 'i', 'c', 'a', 't', 'o', 'r'], .char 0x21b5),
  (['R', 'e', 't', 'u', 'r', 'n', 'K', 'e', 'y'], .char 0xf766),
  (['R', 'e', 'v', 'e', 'r', 's', 'e', 'D', 'o', 'u', 'b', 'l', 'e', 'P', 'r', 'i', 'm', 'e'], .char 0x2036),
  (['R', 'e', 'v', 'e', 'r', 's', 'e', 'E', 'l', 'e', 'm', 'e', 'n', 't'], .char 0x220b),
  (['R', 'e', 'v', 'e', 'r', 's', 'e', 'E', 'q', 'u', 'i', 'l', 'i', 'b', 'r', 'i', 'u', 'm'], .char 0x21cb),
  (['R', 'e', 'v', 'e', 'r', 's', 'e', 'P', 'r', 'i', 'm', 'e'], .char 0x2035),
  (['R', 'e', 'v', 'e', 'r', 's', 'e', 'U', 'p', 'E', 'q', 'u', 'i', 'l', 'i', 'b', 'r', 'i', 'u', 'm'], .char 0x296f),
  (['R', 'h', 'o'], .char 0x3c1),
  (['R', 'i', 'g', 'h', 't', 'A', 'n', 'g', 'l', 'e'], .char 0x221f),
  (['R', 'i', 'g', 'h', 't', 'A', 'n', 'g', 'l', 'e', 'B', 'r', 'a', 'c', 'k', 'e', 't'], .char 0x232a),
  (['R', 'i', 'g', 'h', 't', 'A', 'r', 'r', 'o', 'w'], .char 0x2192),
  (['R', 'i', 'g', 'h', 't', 'A', 'r', 'r', 'o', 'w', 'B', 'a', 'r'], .char 0x21e5),
  (['R', 'i', 'g', 'h', 't', 'A', 'r', 'r', 'o', 'w', 'L', 'e', 'f', 't', 'A', 'r', 'r', 'o', 'w'], .char 0x21c4),
  (['R', 'i', 'g', 'h', 't', 'A', 's', 's', 'o', 'c', 'i', 'a', 't', 'i', 'o', 'n'], .char 0xf114),
  (['R', 'i', 'g', 'h', 't', 'B', 'r', 'a', 'c', 'k', 'e', 't', 'i', 'n', 'g', 'B', 'a', 'r'], .char 0xf604),
  (['R', 'i', 'g', 'h', 't', 'C', 'e', 'i', 'l', 'i', 'n', 'g'], .char 0x2309),
  (['R', 'i', 'g', 'h', 't', 'D', 'o', 'u', 'b', 'l', 'e', 'B', 'r', 'a', 'c', 'k', 'e', 't'], .char 0x301b),
  (['R', 'i', 'g', 'h', 't', 'D', 'o', 'u', 'b', 'l', 'e', 'B', 'r', 'a', 'c', 'k', 'e', 't', 'i', 'n', 'g', 'B', 'a', 'r'], .char 0xf606),
  (['R', 'i', 'g', 'h', 't', 'D', 'o', 'w', 'n', 'T', 'e', 'e', 'V', 'e', 'c', 't', 'o', 'r'], .char 0x295d),
  (['R', 'i', 'g', 'h', 't', 'D', 'o', 'w', 'n', 'V', 'e', 'c', 't', 'o', 'r'], .char 0x21c2),
  (['R', 'i', 'g', 'h', 't', 'D', 'o', 'w', 'n', 'V', 'e', 'c', 't', 'o', 'r', 'B', 'a', 'r'], .char 0x2955),
  (['R', 'i', 'g', 'h', 't', 'F', 'l', 'o', 'o', 'r'], .char 0x230b),
  (['R', 'i', 'g', 'h', 't', 'G', 'u', 'i', 'l', 'l', 'e', 'm', 'e', 't'], .char 0xbb),
  (['R', 'i', 'g', 'h', 't', 'M', 'o', 'd', 'i', 'f', 'i', 'e', 'd'], .char 0xf76c),
  (['R', 'i', 'g', 'h', 't', 'P', 'o', 'i', 'n', 't', 'e', 'r'], .char 0x25b8),
  (['R', 'i', 'g', 'h', 't', 'S', 'k', 'e', 'l', 'e', 't', 'o', 'n'], .char 0xf762),
  (['R', 'i', 'g', 'h', 't', 'T', 'e', 'e'], .char 0x22a2),
  (['R', 'i', 'g', 'h', 't', 'T', 'e', 'e', 'A', 'r', 'r', 'o', 'w'], .char 0x21a6),
  (['R', 'i', 'g', 'h', 't', 'T', 'e', 'e', 'V', 'e', 'c', 't', 'o', 'r'], .char 0x295b),
  (['R', 'i', 'g', 'h', 't', 'T', 'r', 'i', 'a', 'n', 'g', 'l', 'e'], .char 0x22b3),
  (['R', 'i', 'g', 'h', 't', 'T', 'r', 'i', 'a', 'n', 'g', 'l', 'e', 'B', 'a', 'r'], .char 0x29d0),
  (['R', 'i', 'g', 'h', 't', 'T', 'r', 'i', 'a', 'n', 'g', 'l', 'e', 'E', 'q', 'u', 'a', 'l'], .char 0x22b5),
  (['R', 'i', 'g', 'h', 't', 'U', 'p', 'D', 'o', 'w', 'n', 'V', 'e', 'c', 't', 'o', 'r'], .char 0x294f),
  (['R', 'i', 'g', 'h', 't', 'U', 'p', 'T', 'e', 'e', 'V', 'e', 'c', 't', 'o', 'r'], .char 0x295c),
  (['R', 'i', 'g', 'h', 't', 'U', 'p', 'V', 'e', 'c', 't', 'o', 'r'], .char 0x21be),
  (['R', 'i', 'g', 'h', 't', 'U', 'p', 'V', 'e', 'c', 't', 'o', 'r', 'B', 'a', 'r'], .char 0x2954),
  (['R', 'i', 'g', 'h', 't', 'V', 'e', 'c', 't', 'o', 'r'], .char 0x21c0),
  (['R', 'i', 'g', 'h', 't', 'V', 'e', 'c', 't', 'o', 'r', 'B', 'a', 'r'], .char 0x2953),
  (['R', 'o', 'u', 'n', 'd', 'I', 'm', 'p', 'l', 'i', 'e', 's'], .char 0x2970),
  (['R', 'o', 'u', 'n', 'd', 'S', 'p', 'a', 'c', 'e', 'I', 'n', 'd', 'i', 'c', 'a', 't', 'o', 'r'], .char 0xf3b2),
  (['R', 'u', 'l', 'e'], .char 0xf522),
  (['R', 'u', 'l', 'e', 'D', 'e', 'l', 'a', 'y', 'e', 'd'], .char 0xf51f),
  (['R', 'u', 'p', 'e', 'e'], .char 0x20b9),
  (['S', 'H', 'a', 'c', 'e', 'k'], .char 0x161),
  (['S', 'Z'], .char 0xdf),
  (['S', 'a', 'd', 'S', 'm', 'i', 'l', 'e', 'y'], .char 0x2639),
  (['S', 'a', 'g', 'i', 't', 't', 'a', 'r', 'i', 'u', 's', 'S', 'i', 'g', 'n'], .char 0x2650),
  (['S', 'a', 'm', 'p', 'i'], .char 0x3e1),
  (['S', 'a', 't', 'u', 'r', 'n'], .char 0x2644),
  (['S', 'c', 'o', 'r', 'p', 'i', 'o', 'S', 'i', 'g', 'n'], .char 0x264f),
  (['S', 'c', 'r', 'i', 'p', 't', 'A'], .char 0xf6b2),
  (['S', 'c', 'r', 'i', 'p', 't', 'B'], .char 0xf6b3),
  (['S', 'c', 'r', 'i', 'p', 't', 'C'], .char 0xf6b4),
  (['S', 'c', 'r', 'i', 'p', 't', 'C', 'a', 'p', 'i', 't', 'a', 'l', 'A'], .char 0xf770),
  (['S', 'c', 'r', 'i', 'p', 't', 'C', 'a', 'p', 'i', 't', 'a', 'l', 'B'], .char 0x212c),
  (['S', 'c', 'r', 'i', 'p', 't', 'C', 'a', 'p', 'i', 't', 'a', 'l', 'C'], .char 0xf772),
  (['S', 'c', 'r', 'i', 'p', 't', 'C', 'a', 'p', 'i', 't', 'a', 'l', 'D'], .char 0xf773),
  (['S', 'c', 'r', 'i', 'p', 't', 'C', 'a', 'p', 'i', 't', 'a', 'l', 'E'], .char 0x2130),
  (['S', 'c', 'r', 'i', 'p', 't', 'C', 'a', 'p', 'i', 't', 'a', 'l', 'F'], .char 0x2131),
  (['S', 'c', 'r', 'i', 'p', 't', 'C', 'a', 'p', 'i', 't', 'a', 'l', 'G'], .char 0xf776),
  (['S', 'c', 'r', 'i', 'p', 't', 'C', 'a', 'p', 'i', 't', 'a', 'l', 'H'], .char 0x210b),
  (['S', 'c', 'r', 'i', 'p', 't', 'C', 'a', 'p', 'i', 't', 'a', 'l', 'I'], .char 0x2110),
  (['S', 'c', 'r', 'i', 'p', 't', 'C', 'a', 'p', 'i', 't', 'a', 'l', 'J'], .char 0xf779),
  (['S', 'c', 'r', 'i', 'p', 't', 'C', 'a', 'p', 'i', 't', 'a', 'l', 'K'], .char 0xf77a),
  (['S', 'c', 'r', 'i', 'p', 't', 'C', 'a', 'p', 'i', 't', 'a', 'l', 'L'], .char 0x2112),
  (['S', 'c', 'r', 'i', 'p', 't', 'C', 'a', 'p', 'i', 't', 'a', 'l', 'M'], .char 0x2133),
  (['S', 'c', 'r', 'i', 'p', 't', 'C', 'a', 'p', 'i', 't', 'a', 'l', 'N'], .char 0xf77d),
  (['S', 'c', 'r', 'i', 'p', 't', 'C', 'a', 'p', 'i', 't', 'a', 'l', 'O'], .char 0xf77e),
  (['S', 'c', 'r', 'i', 'p', 't', 'C', 'a', 'p', 'i', 't', 'a', 'l', 'P'], .char 0xf77f),
  (['S', 'c', 'r', 'i', 'p', 't', 'C', 'a', 'p', 'i', 't', 'a', 'l', 'Q'], .char 0xf780),
  (['S', 'c', 'r', 'i', 'p', 't', 'C', 'a', 'p', 'i', 't', 'a', 'l', 'R'], .char 0x211b),
  (['S', 'c', 'r', 'i', 'p', 't', 'C', 'a', 'p', 'i', 't', 'a', 'l', 'S'], .char 0xf782),
  (['S', 'c', 'r', 'i', 'p', 't', 'C', 'a', 'p', 'i', 't', 'a', 'l', 'T'], .char 0xf783),
  (['S', 'c', 'r', 'i', 'p', 't', 'C', 'a', 'p', 'i', 't', 'a', 'l', 'U'], .char 0xf784),
  (['S', 'c', 'r', 'i', 'p', 't', 'C', 'a', 'p', 'i', 't', 'a', 'l', 'V'], .char 0xf785),
  (['S', 'c', 'r', 'i', 'p', 't', 'C', 'a', 'p', 'i', 't', 'a', 'l', 'W'], .char 0xf786),
  (['S', 'c', 'r', 'i', 'p', 't', 'C', 'a', 'p', 'i', 't', 'a', 'l', 'X'], .char 0xf787),
  (['S', 'c', 'r', 'i', 'p', 't', 'C', 'a', 'p', 'i', 't', 'a', 'l', 'Y'], .char 0xf788),
  (['S', 'c', 'r', 'i', 'p', 't', 'C', 'a', 'p', 'i', 't', 'a', 'l', 'Z'], .char 0xf789),
  (['S', 'c', 'r', 'i', 'p', 't', 'D'], .char 0xf6b5),
  (['S', 'c', 'r', 'i', 'p', 't', 'D', 'o', 't', 'l', 'e', 's', 's', 'I'], .char 0xf730),
  (['S', 'c', 'r', 'i', 'p', 't', 'D', 'o', 't', 'l', 'e', 's', 's', 'J'], .char 0xf731),
  (['S', 'c', 'r', 'i', 'p', 't', 'E'], .char 0x212f),
  (['S', 'c', 'r', 'i', 'p', 't', 'E', 'i', 'g', 'h', 't'], .char 0xf7f8),
  (['S', 'c', 'r', 'i', 'p', 't', 'F'], .char 0xf6b7),
  (['S', 'c', 'r', 'i', 'p', 't', 'F', 'i', 'v', 'e'], .char 0xf7f5),
  (['S', 'c', 'r', 'i', 'p', 't', 'F', 'o', 'u', 'r'], .char 0xf7f4),
  (['S', 'c', 'r', 'i', 'p', 't', 'G'], .char 0x210a),
  (['S', 'c', 'r', 'i', 'p', 't', 'H'], .char 0xf6b9),
  (['S', 'c', 'r', 'i', 'p', 't', 'I'], .char 0xf6ba),
  (['S', 'c', 'r', 'i', 'p', 't', 'J'], .char 0xf6bb),
  (['S', 'c', 'r', 'i', 'p', 't', 'K'], .char 0xf6bc),
  (['S', 'c', 'r', 'i', 'p', 't', 'L'], .char 0x2113),
  (['S', 'c', 'r', 'i', 'p', 't', 'M'], .char 0xf6be),
  (['S', 'c', 'r', 'i', 'p', 't', 'N'], .char 0xf6bf),
  (['S', 'c', 'r', 'i', 'p', 't', 'N', 'i', 'n', 'e'], .char 0xf7f9),
  (['S', 'c', 'r', 'i', 'p', 't', 'O'], .char 0x2134),
  (['S', 'c', 'r', 'i', 'p', 't', 'O', 'n', 'e'], .char 0xf7f1),
  (['S', 'c', 'r', 'i', 'p', 't', 'P'], .char 0xf6c1),
  (['S', 'c', 'r', 'i', 'p', 't', 'Q'], .char 0xf6c2),
  (['S', 'c', 'r', 'i', 'p', 't', 'R'], .char 0xf6c3),
  (['S', 'c', 'r', 'i', 'p', 't', 'S'], .char 0xf6c4),
  (['S', 'c', 'r', 'i', 'p', 't', 'S', 'e', 'v', 'e', 'n'], .char 0xf7f7),
  (['S', 'c', 'r', 'i', 'p', 't', 'S', 'i', 'x'], .char 0xf7f6),
  (['S', 'c', 'r', 'i', 'p', 't', 'T'], .char 0xf6c5),
  (['S', 'c', 'r', 'i', 'p', 't', 'T', 'h', 'r', 'e', 'e'], .char 0xf7f3),
  (['S', 'c', 'r', 'i', 'p', 't', 'T', 'w', 'o'], .char 0xf7f2),
  (['S', 'c', 'r', 'i', 'p', 't', 'U'], .char 0xf6c6),
  (['S', 'c', 'r', 'i', 'p', 't', 'V'], .char 0xf6c7),
  (['S', 'c', 'r', 'i', 'p', 't', 'W'], .char 0xf6c8),
  (['S', 'c', 'r', 'i', 'p', 't', 'X'], .char 0xf6c9),
  (['S', 'c', 'r', 'i', 'p', 't', 'Y'], .char 0xf6ca),
  (['S', 'c', 'r', 'i', 'p', 't', 'Z'], .char 0xf6cb),
  (['S', 'c', 'r', 'i', 'p', 't', 'Z', 'e', 'r', 'o'], .char 0xf7f0),
  (['S', 'e', 'c', 't', 'i', 'o', 'n'], .char 0xa7),
  (['S', 'e', 'l', 'e', 'c', 't', 'i', 'o', 'n', 'P', 'l', 'a', 'c', 'e', 'h', 'o', 'l', 'd', 'e', 'r'], .char 0xf527),
  (['S', 'h', 'a', 'h'], .char 0xf11d),
  (['S', 'h', 'a', 'r', 'p'], .char 0x266f),
  (['S', 'h', 'i', 'f', 't', 'K', 'e', 'y'], .char 0xf7d5),
  (['S', 'h', 'o', 'r', 't', 'D', 'o', 'w', 'n', 'A', 'r', 'r', 'o', 'w'], .char 0xf52b),
  (['S', 'h', 'o', 'r', 't', 'L', 'e', 'f', 't', 'A', 'r', 'r', 'o', 'w'], .char 0xf526),
  (['S', 'h', 'o', 'r', 't', 'R', 'i', 'g', 'h', 't', 'A', 'r', 'r', 'o', 'w'], .char 0xf525),
  (['S', 'h', 'o', 'r', 't', 'U', 'p', 'A', 'r', 'r', 'o', 'w'], .char 0xf52a),
  (['S', 'i', 'g', 'm', 'a'], .char 0x3c3),
  (['S', 'i', 'x', 'P', 'o', 'i', 'n', 't', 'e', 'd', 'S', 't', 'a', 'r'], .char 0x2736),
  (['S', 'k', 'e', 'l', 'e', 't', 'o', 'n', 'I', 'n', 'd', 'i', 'c', 'a', 't', 'o', 'r'], .char 0x2043),
  (['S', 'm', 'a', 'l', 'l', 'C', 'i', 'r', 'c', 'l', 'e'], .char 0x2218),
  (['S', 'p', 'a', 'c', 'e', 'I', 'n', 'd', 'i', 'c', 'a', 't', 'o', 'r'], .char 0x2423),
  (['S', 'p', 'a', 'c', 'e', 'K', 'e', 'y'], .char 0xf7bf),
  (['S', 'p', 'a', 'd', 'e', 'S', 'u', 'i', 't'], .char 0x2660),
  (['S', 'p', 'a', 'n', 'F', 'r', 'o', 'm', 'A', 'b', 'o', 'v', 'e'], .char 0xf3bb),
  (['S', 'p', 'a', 'n', 'F', 'r', 'o', 'm', 'B', 'o', 't', 'h'], .char 0xf3bc),
  (['S', 'p', 'a', 'n', 'F', 'r', 'o', 'm', 'L', 'e', 'f', 't'], .char 0xf3ba),
  (['S', 'p', 'h', 'e', 'r', 'i', 'c', 'a', 'l', 'A', 'n', 'g', 'l', 'e'], .char 0x2222),
  (['S', 'p', 'o', 'o', 'k', 'y'], .char 0xf72a),
  (['S', 'q', 'r', 't'], .char 0x221a),
  (['S', 'q', 'u', 'a', 'r', 'e'], .char 0xf520),
  (['S', 'q', 'u', 'a', 'r', 'e', 'I', 'n', 't', 'e', 'r', 's', 'e', 'c', 't', 'i', 'o', 'n'], .char 0x2293),
  (['S', 'q', 'u', 'a', 'r', 'e', 'S', 'u', 'b', 's', 'e', 't'], .char 0x228f),
  (['S', 'q', 'u', 'a', 'r', 'e', 'S', 'u', 'b', 's', 'e', 't', 'E', 'q', 'u', 'a', 'l'], .char 0x2291),
  (['S', 'q', 'u', 'a', 'r', 'e', 'S', 'u', 'p', 'e', 'r', 's', 'e', 't'], .char 0x2290),
  (['S', 'q', 'u', 'a', 'r', 'e', 'S', 'u', 'p', 'e', 'r', 's', 'e', 't', 'E', 'q', 'u', 'a', 'l'], .char 0x2292),
  (['S', 'q', 'u', 'a', 'r', 'e', 'U', 'n', 'i', 'o', 'n'], .char 0x2294),
  (['S', 't', 'a', 'r'], .char 0x22c6),
  (['S', 't', 'e', 'p', 'p', 'e', 'r', 'D', 'o', 'w', 'n'], .char 0xf3cd),
  (['S', 't', 'e', 'p', 'p', 'e', 'r', 'L', 'e', 'f', 't'], .char 0xf3cb),
  (['S', 't', 'e', 'p', 'p', 'e', 'r', 'R', 'i', 'g', 'h', 't'], .char 0xf3ca),
  (['S', 't', 'e', 'p', 'p', 'e', 'r', 'U', 'p'], .char 0xf3cc),
  (['S', 't', 'e', 'r', 'l', 'i', 'n', 'g'], .char 0xa3),
  (['S', 't', 'i', 'g', 'm', 'a'], .char 0x3db),
  (['S', 'u', 'b', 's', 'e', 't'], .char 0x2282),
  (['S', 'u', 'b', 's', 'e', 't', 'E', 'q', 'u', 'a', 'l'], .char 0x2286),
  (['S', 'u', 'c', 'c', 'e', 'e', 'd', 's'], .char 0x227b),
  (['S', 'u', 'c', 'c', 'e', 'e', 'd', 's', 'E', 'q', 'u', 'a', 'l'], .char 0x2ab0),
  (['S', 'u', 'c', 'c', 'e', 'e', 'd', 's', 'S', 'l', 'a', 'n', 't', 'E', 'q', 'u', 'a', 'l'], .char 0x227d),
  (['S', 'u', 'c', 'c', 'e', 'e', 'd', 's', 'T', 'i', 'l', 'd', 'e'], .char 0x227f),
  (['S', 'u', 'c', 'h', 'T', 'h', 'a', 't'], .char 0x220d),
  (['S', 'u', 'm'], .char 0x2211),
  (['S', 'u', 'n'], .char 0x2609),
  (['S', 'u', 'p', 'e', 'r', 's', 'e', 't'], .char 0x2283),
  (['S', 'u', 'p', 'e', 'r', 's', 'e', 't', 'E', 'q', 'u', 'a', 'l'], .char 0x2287),
  (['S', 'y', 's', 't', 'e', 'm', 'E', 'n', 't', 'e', 'r', 'K', 'e', 'y'], .char 0xf75f),
  (['S', 'y', 's', 't', 'e', 'm', 's', 'M', 'o', 'd', 'e', 'l', 'D', 'e', 'l', 'a', 'y'], .char 0xf3af),
  (['T', 'H', 'a', 'c', 'e', 'k'], .char 0x165),
  (['T', 'a', 'b', 'K', 'e', 'y'], .char 0xf7be),
  (['T', 'a', 'u'], .char 0x3c4),
  (['T', 'a', 'u', 'r', 'u', 's', 'S', 'i', 'g', 'n'], .char 0x2649),
  (['T', 'e', 'n', 's', 'o', 'r', 'P', 'r', 'o', 'd', 'u', 'c', 't'], .char 0xf3da),
  (['T', 'e', 'n', 's', 'o', 'r', 'W', 'e', 'd', 'g', 'e'], .char 0xf3db),
  (['T', 'h', 'e', 'r', 'e', 'f', 'o', 'r', 'e'], .char 0x2234),
  (['T', 'h', 'e', 't', 'a'], .char 0x3b8),
  (['T', 'h', 'i', 'c', 'k', 'S', 'p', 'a', 'c', 'e'], .char 0x2005),
  (['T', 'h', 'i', 'n', 'S', 'p', 'a', 'c', 'e'], .char 0x2009),
  (['T', 'h', 'o', 'r', 'n'], .char 0xfe),
  (['T', 'i', 'l', 'd', 'e'], .char 0x223c),
  (['T', 'i', 'l', 'd', 'e', 'E', 'q', 'u', 'a', 'l'], .char 0x2243),
  (['T', 'i', 'l', 'd', 'e', 'F', 'u', 'l', 'l', 'E', 'q', 'u', 'a', 'l'], .char 0x2245),
  (['T', 'i', 'l', 'd', 'e', 'T', 'i', 'l', 'd', 'e'], .char 0x2248),
  (['T', 'i', 'm', 'e', 's'], .char 0xd7),
  (['T', 'r', 'a', 'd', 'e', 'm', 'a', 'r', 'k'], .char 0x2122),
  (['T', 'r', 'a', 'n', 's', 'p', 'o', 's', 'e'], .char 0xf3c7),
  (['T', 'r', 'i', 'p', 'l', 'e', 'D', 'o', 't'], .char 0xf758),
  (['T', 'w', 'o', 'W', 'a', 'y', 'R', 'u', 'l', 'e'], .char 0xf120),
  (['U', 'A', 'c', 'u', 't', 'e'], .char 0xfa),
  (['U', 'D', 'o', 'u', 'b', 'l', 'e', 'A', 'c', 'u', 't', 'e'], .char 0x171),
  (['U', 'D', 'o', 'u', 'b', 'l', 'e', 'D', 'o', 't'], .char 0xfc),
  (['U', 'G', 'r', 'a', 'v', 'e'], .char 0xf9),
  (['U', 'H', 'a', 't'], .char 0xfb),
  (['U', 'R', 'i', 'n', 'g'], .char 0x16f),
  (['U', 'n', 'd', 'e', 'r', 'B', 'r', 'a', 'c', 'e'], .char 0xfe38),
  (['U', 'n', 'd', 'e', 'r', 'B', 'r', 'a', 'c', 'k', 'e', 't'], .char 0x23b5),
  (['U', 'n', 'd', 'e', 'r', 'P', 'a', 'r', 'e', 'n', 't', 'h', 'e', 's', 'i', 's'], .char 0xfe36),
  (['U', 'n', 'd', 'i', 'r', 'e', 'c', 't', 'e', 'd', 'E', 'd', 'g', 'e'], .char 0xf3d4),
  (['U', 'n', 'i', 'o', 'n'], .char 0x22c3),
  (['U', 'n', 'i', 'o', 'n', 'P', 'l', 'u', 's'], .char 0x228e),
  (['U', 'n', 'k', 'n', 'o', 'w', 'n', 'G', 'l', 'y', 'p', 'h'], .char 0xfffd),
  (['U', 'p', 'A', 'r', 'r', 'o', 'w'], .char 0x2191),
  (['U', 'p', 'A', 'r', 'r', 'o', 'w', 'B', 'a', 'r'], .char 0x2912),
  (['U', 'p', 'A', 'r', 'r', 'o', 'w', 'D', 'o', 'w', 'n', 'A', 'r', 'r', 'o', 'w'], .char 0x21c5),
  (['U', 'p', 'D', 'o', 'w', 'n', 'A', 'r', 'r', 'o', 'w'], .char 0x2195),
  (['U', 'p', 'E', 'q', 'u', 'i', 'l', 'i', 'b', 'r', 'i', 'u', 'm'], .char 0x296e),
  (['U', 'p', 'P', 'o', 'i', 'n', 't', 'e', 'r'], .char 0x25b4),
  (['U', 'p', 'T', 'e', 'e'], .char 0x22a5),
  (['U', 'p', 'T', 'e', 'e', 'A', 'r', 'r', 'o', 'w'], .char 0x21a5),
  (['U', 'p', 'p', 'e', 'r', 'L', 'e', 'f', 't', 'A', 'r', 'r', 'o', 'w'], .char 0x2196),
  (['U', 'p', 'p', 'e', 'r', 'R', 'i', 'g', 'h', 't', 'A', 'r', 'r', 'o', 'w'], .char 0x2197),
  (['U', 'p', 's', 'i', 'l', 'o', 'n'], .char 0x3c5),
  (['U', 'r', 'a', 'n', 'u', 's'], .char 0x26e2),
  (['V', 'e', 'c', 't', 'o', 'r', 'G', 'r', 'e', 'a', 't', 'e', 'r'], .char 0xf434),
  (['V', 'e', 'c', 't', 'o', 'r', 'G', 'r', 'e', 'a', 't', 'e', 'r', 'E', 'q', 'u', 'a', 'l'], .char 0xf435),
  (['V', 'e', 'c', 't', 'o', 'r', 'L', 'e', 's', 's'], .char 0xf436),
  (['V', 'e', 'c', 't', 'o', 'r', 'L', 'e', 's', 's', 'E', 'q', 'u', 'a', 'l'], .char 0xf437),
  (['V', 'e', 'e'], .char 0x22c1),
  (['V', 'e', 'n', 'u', 's'], .char 0x2640),
  (['V', 'e', 'r', 't', 'i', 'c', 'a', 'l', 'B', 'a', 'r'], .char 0xf3d0),
  (['V', 'e', 'r', 't', 'i', 'c', 'a', 'l', 'E', 'l', 'l', 'i', 'p', 's', 'i', 's'], .char 0x22ee),
  (['V', 'e', 'r', 't', 'i', 'c', 'a', 'l', 'L', 'i', 'n', 'e'], .char 0x2502),
  (['V', 'e', 'r', 't', 'i', 'c', 'a', 'l', 'S', 'e', 'p', 'a', 'r', 'a', 't', 'o', 'r'], .char 0xf432),
  (['V', 'e', 'r', 't', 'i', 'c', 'a', 'l', 'T', 'i', 'l', 'd', 'e'], .char 0x2240),
  (['V', 'e', 'r', 'y', 'T', 'h', 'i', 'n', 'S', 'p', 'a', 'c', 'e'], .char 0x200a),
  (['V', 'i', 'l', 'l', 'a'], .char 0xf727),
  (['V', 'i', 'r', 'g', 'o', 'S', 'i', 'g', 'n'], .char 0x264d),
  (['W', 'a', 'r', 'n', 'i', 'n', 'g', 'S', 'i', 'g', 'n'], .char 0xf725),
  (['W', 'a', 't', 'c', 'h', 'I', 'c', 'o', 'n'], .char 0x231a),
  (['W', 'e', 'd', 'g', 'e'], .char 0x22c0),
  (['W', 'e', 'i', 'e', 'r', 's', 't', 'r', 'a', 's', 's', 'P'], .char 0x2118),
  (['W', 'h', 'i', 't', 'e', 'B', 'i', 's', 'h', 'o', 'p'], .char 0x2657),
  (['W', 'h', 'i', 't', 'e', 'K', 'i', 'n', 'g'], .char 0x2654),
  (['W', 'h', 'i', 't', 'e', 'K', 'n', 'i', 'g', 'h', 't'], .char 0x2658),
  (['W', 'h', 'i', 't', 'e', 'P', 'a', 'w', 'n'], .char 0x2659),
  (['W', 'h', 'i', 't', 'e', 'Q', 'u', 'e', 'e', 'n'], .char 0x2655),
  (['W', 'h', 'i', 't', 'e', 'R', 'o', 'o', 'k'], .char 0x2656),
  (['W', 'o', 'l', 'f'], .char 0xf720),
  (['W', 'o', 'l', 'f', 'r', 'a', 'm', 'A', 'l', 'p', 'h', 'a', 'P', 'r', 'o', 'm', 'p', 't'], .char 0xf352),
  (['W', 'o', 'l', 'f', 'r', 'a', 'm', 'L', 'a', 'n', 'g', 'u', 'a', 'g', 'e', 'L', 'o', 'g', 'o'], .char 0xf11e),
  (['W', 'o', 'l', 'f', 'r', 'a', 'm', 'L', 'a', 'n', 'g', 'u', 'a', 'g', 'e', 'L', 'o', 'g', 'o', 'C', 'i', 'r', 'c', 'l', 'e'], .char 0xf11f),
  (['X', 'i'], .char 0x3be),
  (['X', 'n', 'o', 'r'], .char 0xf4a2),
  (['X', 'o', 'r'], .char 0x22bb),
  (['Y', 'A', 'c', 'u', 't', 'e'], .char 0xfd),
  (['Y', 'D', 'o', 'u', 'b', 'l', 'e', 'D', 'o', 't'], .char 0xff),
  (['Y', 'e', 'n'], .char 0xa5),
  (['Z', 'H', 'a', 'c', 'e', 'k'], .char 0x17e),
  (['Z', 'e', 't', 'a'], .char 0x3b6)]

/-- `CODEPOINT_TO_LONGNAME_MAP`, generated/long_names_registration.rs:2244-3347. -/
def codePointNameTable : List (CP × List Char) := [
  (.char 0x9, ['R', 'a', 'w', 'T', 'a', 'b']),
  (.char 0xa, ['N', 'e', 'w', 'L', 'i', 'n', 'e']),
  (.char 0xd, ['R', 'a', 'w', 'R', 'e', 't', 'u', 'r', 'n']),
  (.char 0x1b, ['R', 'a', 'w', 'E', 's', 'c', 'a', 'p', 'e']),
  (.char 0x20, ['R', 'a', 'w', 'S', 'p', 'a', 'c', 'e']),
  (.char 0x21, ['R', 'a', 'w', 'E', 'x', 'c', 'l', 'a', 'm', 'a', 't', 'i', 'o', 'n']),
  (.metaDoubleQuote, ['R', 'a', 'w', 'D', 'o', 'u', 'b', 'l', 'e', 'Q', 'u', 'o', 't', 'e']),
  (.char 0x23, ['R', 'a', 'w', 'N', 'u', 'm', 'b', 'e', 'r', 'S', 'i', 'g', 'n']),
  (.char 0x24, ['R', 'a', 'w', 'D', 'o', 'l', 'l', 'a', 'r']),
  (.char 0x25, ['R', 'a', 'w', 'P', 'e', 'r', 'c', 'e', 'n', 't']),
  (.char 0x26, ['R', 'a', 'w', 'A', 'm', 'p', 'e', 'r', 's', 'a', 'n', 'd']),
  (.char 0x27, ['R', 'a', 'w', 'Q', 'u', 'o', 't', 'e']),
  (.char 0x28, ['R', 'a', 'w', 'L', 'e', 'f', 't', 'P', 'a', 'r', 'e', 'n', 't', 'h', 'e', 's', 'i', 's']),
  (.char 0x29, ['R', 'a', 'w', 'R', 'i', 'g', 'h', 't', 'P', 'a', 'r', 'e', 'n', 't', 'h', 'e', 's', 'i', 's']),
  (.char 0x2a, ['R', 'a', 'w', 'S', 't', 'a', 'r']),
  (.char 0x2b, ['R', 'a', 'w', 'P', 'l', 'u', 's']),
  (.char 0x2c, ['R', 'a', 'w', 'C', 'o', 'm', 'm', 'a']),
  (.char 0x2d, ['R', 'a', 'w', 'D', 'a', 's', 'h']),
  (.char 0x2e, ['R', 'a', 'w', 'D', 'o', 't']),
  (.char 0x2f, ['R', 'a', 'w', 'S', 'l', 'a', 's', 'h']),
  (.char 0x3a, ['R', 'a', 'w', 'C', 'o', 'l', 'o', 'n']),
  (.char 0x3b, ['R', 'a', 'w', 'S', 'e', 'm', 'i', 'c', 'o', 'l', 'o', 'n']),
  (.char 0x3c, ['R', 'a', 'w', 'L', 'e', 's', 's']),
  (.char 0x3d, ['R', 'a', 'w', 'E', 'q', 'u', 'a', 'l']),
  (.char 0x3e, ['R', 'a', 'w', 'G', 'r', 'e', 'a', 't', 'e', 'r']),
  (.char 0x3f, ['R', 'a', 'w', 'Q', 'u', 'e', 's', 't', 'i', 'o', 'n']),
  (.char 0x40, ['R', 'a', 'w', 'A', 't']),
  (.char 0x5b, ['R', 'a', 'w', 'L', 'e', 'f', 't', 'B', 'r', 'a', 'c', 'k', 'e', 't']),
  (.metaBackslash, ['R', 'a', 'w', 'B', 'a', 'c', 'k', 's', 'l', 'a', 's', 'h']),
  (.char 0x5d, ['R', 'a', 'w', 'R', 'i', 'g', 'h', 't', 'B', 'r', 'a', 'c', 'k', 'e', 't']),
  (.char 0x5e, ['R', 'a', 'w', 'W', 'e', 'd', 'g', 'e']),
  (.char 0x5f, ['R', 'a', 'w', 'U', 'n', 'd', 'e', 'r', 's', 'c', 'o', 'r', 'e']),
  (.char 0x60, ['R', 'a', 'w', 'B', 'a', 'c', 'k', 'q', 'u', 'o', 't', 'e']),
  (.char 0x7b, ['R', 'a', 'w', 'L', 'e', 'f', 't', 'B', 'r', 'a', 'c', 'e']),
  (.char 0x7c, ['R', 'a', 'w', 'V', 'e', 'r', 't', 'i', 'c', 'a', 'l', 'B', 'a', 'r']),
  (.char 0x7d, ['R', 'a', 'w', 'R', 'i', 'g', 'h', 't', 'B', 'r', 'a', 'c', 'e']),
  (.char 0x7e, ['R', 'a', 'w', 'T', 'i', 'l', 'd', 'e']),
  (.char 0xa0, ['N', 'o', 'n', 'B', 'r', 'e', 'a', 'k', 'i', 'n', 'g', 'S', 'p', 'a', 'c', 'e']),
  (.char 0xa1, ['D', 'o', 'w', 'n', 'E', 'x', 'c', 'l', 'a', 'm', 'a', 't', 'i', 'o', 'n']),
  (.char 0xa2, ['C', 'e', 'n', 't']),
  (.char 0xa3, ['S', 't', 'e', 'r', 'l', 'i', 'n', 'g']),
  (.char 0xa4, ['C', 'u', 'r', 'r', 'e', 'n', 'c', 'y']),
  (.char 0xa5, ['Y', 'e', 'n']),
  (.char 0xa7, ['S', 'e', 'c', 't', 'i', 'o', 'n']),
  (.char 0xa8, ['D', 'o', 'u', 'b', 'l', 'e', 'D', 'o', 't']),
  (.char 0xa9, ['C', 'o', 'p', 'y', 'r', 'i', 'g', 'h', 't']),
  (.char 0xab, ['L', 'e', 'f', 't', 'G', 'u', 'i', 'l', 'l', 'e', 'm', 'e', 't']),
  (.char 0xac, ['N', 'o', 't']),
  (.char 0xad, ['D', 'i', 's', 'c', 'r', 'e', 't', 'i', 'o', 'n', 'a', 'r', 'y', 'H', 'y', 'p', 'h', 'e', 'n']),
  (.char 0xae, ['R', 'e', 'g', 'i', 's', 't', 'e', 'r', 'e', 'd', 'T', 'r', 'a', 'd', 'e', 'm', 'a', 'r', 'k']),
  (.char 0xb0, ['D', 'e', 'g', 'r', 'e', 'e']),
  (.char 0xb1, ['P', 'l', 'u', 's', 'M', 'i', 'n', 'u', 's']),
  (.char 0xb5, ['M', 'i', 'c', 'r', 'o']),
  (.char 0xb6, ['P', 'a', 'r', 'a', 'g', 'r', 'a', 'p', 'h']),
  (.char 0xb7, ['C', 'e', 'n', 't', 'e', 'r', 'D', 'o', 't']),
  (.char 0xb8, ['C', 'e', 'd', 'i', 'l', 'l', 'a']),
  (.char 0xbb, ['R', 'i', 'g', 'h', 't', 'G', 'u', 'i', 'l', 'l', 'e', 'm', 'e', 't']),
  (.char 0xbf, ['D', 'o', 'w', 'n', 'Q', 'u', 'e', 's', 't', 'i', 'o', 'n']),
  (.char 0xc0, ['C', 'a', 'p', 'i', 't', 'a', 'l', 'A', 'G', 'r', 'a', 'v', 'e']),
  (.char 0xc1, ['C', 'a', 'p', 'i', 't', 'a', 'l', 'A', 'A', 'c', 'u', 't', 'e']),
  (.char 0xc2, ['C', 'a', 'p', 'i', 't', 'a', 'l', 'A', 'H', 'a', 't']),
  (.char 0xc3, ['C', 'a', 'p', 'i', 't', 'a', 'l', 'A', 'T', 'i', 'l', 'd', 'e']),
  (.char 0xc4, ['C', 'a', 'p', 'i', 't', 'a', 'l', 'A', 'D', 'o', 'u', 'b', 'l', 'e', 'D', 'o', 't']),
  (.char 0xc5, ['C', 'a', 'p', 'i', 't', 'a', 'l', 'A', 'R', 'i', 'n', 'g']),
  (.char 0xc6, ['C', 'a', 'p', 'i', 't', 'a', 'l', 'A', 'E']),
  (.char 0xc7, ['C', 'a', 'p', 'i', 't', 'a', 'l', 'C', 'C', 'e', 'd', 'i', 'l', 'l', 'a']),
  (.char 0xc8, ['C', 'a', 'p', 'i', 't', 'a', 'l', 'E', 'G', 'r', 'a', 'v', 'e']),
  (.char 0xc9, ['C', 'a', 'p', 'i', 't', 'a', 'l', 'E', 'A', 'c', 'u', 't', 'e']),
  (.char 0xca, ['C', 'a', 'p', 'i', 't', 'a', 'l', 'E', 'H', 'a', 't']),
  (.char 0xcb, ['C', 'a', 'p', 'i', 't', 'a', 'l', 'E', 'D', 'o', 'u', 'b', 'l', 'e', 'D', 'o', 't']),
  (.char 0xcc, ['C', 'a', 'p', 'i', 't', 'a', 'l', 'I', 'G', 'r', 'a', 'v', 'e']),
  (.char 0xcd, ['C', 'a', 'p', 'i', 't', 'a', 'l', 'I', 'A', 'c', 'u', 't', 'e']),
  (.char 0xce, ['C', 'a', 'p', 'i', 't', 'a', 'l', 'I', 'H', 'a', 't']),
  (.char 0xcf, ['C', 'a', 'p', 'i', 't', 'a', 'l', 'I', 'D', 'o', 'u', 'b', 'l', 'e', 'D', 'o', 't']),
  (.char 0xd0, ['C', 'a', 'p', 'i', 't', 'a', 'l', 'E', 't', 'h']),
  (.char 0xd1, ['C', 'a', 'p', 'i', 't', 'a', 'l', 'N', 'T', 'i', 'l', 'd', 'e']),
  (.char 0xd2, ['C', 'a', 'p', 'i', 't', 'a', 'l', 'O', 'G', 'r', 'a', 'v', 'e']),
  (.char 0xd3, ['C', 'a', 'p', 'i', 't', 'a', 'l', 'O', 'A', 'c', 'u', 't', 'e']),
  (.char 0xd4, ['C', 'a', 'p', 'i', 't', 'a', 'l', 'O', 'H', 'a', 't']),
  (.char 0xd5, ['C', 'a', 'p', 'i', 't', 'a', 'l', 'O', 'T', 'i', 'l', 'd', 'e']),
  (.char 0xd6, ['C', 'a', 'p', 'i', 't', 'a', 'l', 'O', 'D', 'o', 'u', 'b', 'l', 'e', 'D', 'o', 't']),
  (.char 0xd7, ['T', 'i', 'm', 'e', 's']),
  (.char 0xd8, ['C', 'a', 'p', 'i', 't', 'a', 'l', 'O', 'S', 'l', 'a', 's', 'h']),
  (.char 0xd9, ['C', 'a', 'p', 'i', 't', 'a', 'l', 'U', 'G', 'r', 'a', 'v', 'e']),
  (.char 0xda, ['C', 'a', 'p', 'i', 't', 'a', 'l', 'U', 'A', 'c', 'u', 't', 'e']),
  (.char 0xdb, ['C', 'a', 'p', 'i', 't', 'a', 'l', 'U', 'H', 'a', 't']),
  (.char 0xdc, ['C', 'a', 'p', 'i', 't', 'a', 'l', 'U', 'D', 'o', 'u', 'b', 'l', 'e', 'D', 'o', 't']),
  (.char 0xdd, ['C', 'a', 'p', 'i', 't', 'a', 'l', 'Y', 'A', 'c', 'u', 't', 'e']),
  (.char 0xde, ['C', 'a', 'p', 'i', 't', 'a', 'l', 'T', 'h', 'o', 'r', 'n']),
  (.char 0xdf, ['S', 'Z']),
  (.char 0xe0, ['A', 'G', 'r', 'a', 'v', 'e']),
  (.char 0xe1, ['A', 'A', 'c', 'u', 't', 'e']),
  (.char 0xe2, ['A', 'H', 'a', 't']),
  (.char 0xe3, ['A', 'T', 'i', 'l', 'd', 'e']),
  (.char 0xe4, ['A', 'D', 'o', 'u', 'b', 'l', 'e', 'D', 'o', 't']),
  (.char 0xe5, ['A', 'R', 'i', 'n', 'g']),
  (.char 0xe6, ['A', 'E']),
  (.char 0xe7, ['C', 'C', 'e', 'd', 'i', 'l', 'l', 'a']),
  (.char 0xe8, ['E', 'G', 'r', 'a', 'v', 'e']),
  (.char 0xe9, ['E', 'A', 'c', 'u', 't', 'e']),
  (.char 0xea, ['E', 'H', 'a', 't']),
  (.char 0xeb, ['E', 'D', 'o', 'u', 'b', 'l', 'e', 'D', 'o', 't']),
  (.char 0xec, ['I', 'G', 'r', 'a', 'v', 'e']),
  (.char 0xed, ['I', 'A', 'c', 'u', 't', 'e']),
  (.char 0xee, ['I', 'H', 'a', 't']),
  (.char 0xef, ['I', 'D', 'o', 'u', 'b', 'l', 'e', 'D', 'o', 't']),
  (.char 0xf0, ['E', 't', 'h']),
  (.char 0xf1, ['N', 'T', 'i', 'l', 'd', 'e']),
  (.char 0xf2, ['O', 'G', 'r', 'a', 'v', 'e']),
  (.char 0xf3, ['O', 'A', 'c', 'u', 't', 'e']),
  (.char 0xf4, ['O', 'H', 'a', 't']),
  (.char 0xf5, ['O', 'T', 'i', 'l', 'd', 'e']),
  (.char 0xf6, ['O', 'D', 'o', 'u', 'b', 'l', 'e', 'D', 'o', 't']),
  (.char 0xf7, ['D', 'i', 'v', 'i', 'd', 'e']),
  (.char 0xf8, ['O', 'S', 'l', 'a', 's', 'h']),
  (.char 0xf9, ['U', 'G', 'r', 'a', 'v', 'e']),
  (.char 0xfa, ['U', 'A', 'c', 'u', 't', 'e']),
  (.char 0xfb, ['U', 'H', 'a', 't']),
  (.char 0xfc, ['U', 'D', 'o', 'u', 'b', 'l', 'e', 'D', 'o', 't']),
  (.char 0xfd, ['Y', 'A', 'c', 'u', 't', 'e']),
  (.char 0xfe, ['T', 'h', 'o', 'r', 'n']),
  (.char 0xff, ['Y', 'D', 'o', 'u', 'b', 'l', 'e', 'D', 'o', 't']),
  (.char 0x100, ['C', 'a', 'p', 'i', 't', 'a', 'l', 'A', 'B', 'a', 'r']),
  (.char 0x101, ['A', 'B', 'a', 'r']),
  (.char 0x102, ['C', 'a', 'p', 'i', 't', 'a', 'l', 'A', 'C', 'u', 'p']),
  (.char 0x103, ['A', 'C', 'u', 'p']),
  (.char 0x106, ['C', 'a', 'p', 'i', 't', 'a', 'l', 'C', 'A', 'c', 'u', 't', 'e']),
  (.char 0x107, ['C', 'A', 'c', 'u', 't', 'e']),
  (.char 0x10c, ['C', 'a', 'p', 'i', 't', 'a', 'l', 'C', 'H', 'a', 'c', 'e', 'k']),
  (.char 0x10d, ['C', 'H', 'a', 'c', 'e', 'k']),
  (.char 0x10e, ['C', 'a', 'p', 'i', 't', 'a', 'l', 'D', 'H', 'a', 'c', 'e', 'k']),
  (.char 0x10f, ['D', 'H', 'a', 'c', 'e', 'k']),
  (.char 0x112, ['C', 'a', 'p', 'i', 't', 'a', 'l', 'E', 'B', 'a', 'r']),
  (.char 0x113, ['E', 'B', 'a', 'r']),
  (.char 0x114, ['C', 'a', 'p', 'i', 't', 'a', 'l', 'E', 'C', 'u', 'p']),
  (.char 0x115, ['E', 'C', 'u', 'p']),
  (.char 0x11a, ['C', 'a', 'p', 'i', 't', 'a', 'l', 'E', 'H', 'a', 'c', 'e', 'k']),
  (.char 0x11b, ['E', 'H', 'a', 'c', 'e', 'k']),
  (.char 0x12c, ['C', 'a', 'p', 'i', 't', 'a', 'l', 'I', 'C', 'u', 'p']),
  (.char 0x12d, ['I', 'C', 'u', 'p']),
  (.char 0x131, ['D', 'o', 't', 'l', 'e', 's', 's', 'I']),
  (.char 0x141, ['C', 'a', 'p', 'i', 't', 'a', 'l', 'L', 'S', 'l', 'a', 's', 'h']),
  (.char 0x142, ['L', 'S', 'l', 'a', 's', 'h']),
  (.char 0x147, ['C', 'a', 'p', 'i', 't', 'a', 'l', 'N', 'H', 'a', 'c', 'e', 'k']),
  (.char 0x148, ['N', 'H', 'a', 'c', 'e', 'k']),
  (.char 0x150, ['C', 'a', 'p', 'i', 't', 'a', 'l', 'O', 'D', 'o', 'u', 'b', 'l', 'e', 'A', 'c', 'u', 't', 'e']),
  (.char 0x151, ['O', 'D', 'o', 'u', 'b', 'l', 'e', 'A', 'c', 'u', 't', 'e']),
  (.char 0x152, ['C', 'a', 'p', 'i', 't', 'a', 'l', 'O', 'E']),
  (.char 0x153, ['O', 'E']),
  (.char 0x158, ['C', 'a', 'p', 'i', 't', 'a', 'l', 'R', 'H', 'a', 'c', 'e', 'k']),
  (.char 0x159, ['R', 'H', 'a', 'c', 'e', 'k']),
  (.char 0x160, ['C', 'a', 'p', 'i', 't', 'a', 'l', 'S', 'H', 'a', 'c', 'e', 'k']),
  (.char 0x161, ['S', 'H', 'a', 'c', 'e', 'k']),
  (.char 0x164, ['C', 'a', 'p', 'i', 't', 'a', 'l', 'T', 'H', 'a', 'c', 'e', 'k']),
  (.char 0x165, ['T', 'H', 'a', 'c', 'e', 'k']),
  (.char 0x16e, ['C', 'a', 'p', 'i', 't', 'a', 'l', 'U', 'R', 'i', 'n', 'g']),
  (.char 0x16f, ['U', 'R', 'i', 'n', 'g']),
  (.char 0x170, ['C', 'a', 'p', 'i', 't', 'a', 'l', 'U', 'D', 'o', 'u', 'b', 'l', 'e', 'A', 'c', 'u', 't', 'e']),
  (.char 0x171, ['U', 'D', 'o', 'u', 'b', 'l', 'e', 'A', 'c', 'u', 't', 'e']),
  (.char 0x17d, ['C', 'a', 'p', 'i', 't', 'a', 'l', 'Z', 'H', 'a', 'c', 'e', 'k']),
  (.char 0x17e, ['Z', 'H', 'a', 'c', 'e', 'k']),
  (.char 0x192, ['F', 'l', 'o', 'r', 'i', 'n']),
  (.char 0x2c7, ['H', 'a', 'c', 'e', 'k']),
  (.char 0x2d8, ['B', 'r', 'e', 'v', 'e']),
  (.char 0x391, ['C', 'a', 'p', 'i', 't', 'a', 'l', 'A', 'l', 'p', 'h', 'a']),
  (.char 0x392, ['C', 'a', 'p', 'i', 't', 'a', 'l', 'B', 'e', 't', 'a']),
  (.char 0x393, ['C', 'a', 'p', 'i', 't', 'a', 'l', 'G', 'a', 'm', 'm', 'a']),
  (.char 0x394, ['C', 'a', 'p', 'i', 't', 'a', 'l', 'D', 'e', 'l', 't', 'a']),
  (.char 0x395, ['C', 'a', 'p', 'i', 't', 'a', 'l', 'E', 'p', 's', 'i', 'l', 'o', 'n']),
  (.char 0x396, ['C', 'a', 'p', 'i', 't', 'a', 'l', 'Z', 'e', 't', 'a']),
  (.char 0x397, ['C', 'a', 'p', 'i', 't', 'a', 'l', 'E', 't', 'a']),
  (.char 0x398, ['C', 'a', 'p', 'i', 't', 'a', 'l', 'T', 'h', 'e', 't', 'a']),
  (.char 0x399, ['C', 'a', 'p', 'i', 't', 'a', 'l', 'I', 'o', 't', 'a']),
  (.char 0x39a, ['C', 'a', 'p', 'i', 't', 'a', 'l', 'K', 'a', 'p', 'p', 'a']),
  (.char 0x39b, ['C', 'a', 'p', 'i', 't', 'a', 'l', 'L', 'a', 'm', 'b', 'd', 'a']),
  (.char 0x39c, ['C', 'a', 'p', 'i', 't', 'a', 'l', 'M', 'u']),
  (.char 0x39d, ['C', 'a', 'p', 'i', 't', 'a', 'l', 'N', 'u']),
  (.char 0x39e, ['C', 'a', 'p', 'i', 't', 'a', 'l', 'X', 'i']),
  (.char 0x39f, ['C', 'a', 'p', 'i', 't', 'a', 'l', 'O', 'm', 'i', 'c', 'r', 'o', 'n']),
  (.char 0x3a0, ['C', 'a', 'p', 'i', 't', 'a', 'l', 'P', 'i']),
  (.char 0x3a1, ['C', 'a', 'p', 'i', 't', 'a', 'l', 'R', 'h', 'o']),
  (.char 0x3a3, ['C', 'a', 'p', 'i', 't', 'a', 'l', 'S', 'i', 'g', 'm', 'a']),
  (.char 0x3a4, ['C', 'a', 'p', 'i', 't', 'a', 'l', 'T', 'a', 'u']),
  (.char 0x3a5, ['C', 'a', 'p', 'i', 't', 'a', 'l', 'U', 'p', 's', 'i', 'l', 'o', 'n']),
  (.char 0x3a6, ['C', 'a', 'p', 'i', 't', 'a', 'l', 'P', 'h', 'i']),
  (.char 0x3a7, ['C', 'a', 'p', 'i', 't', 'a', 'l', 'C', 'h', 'i']),
  (.char 0x3a8, ['C', 'a', 'p', 'i', 't', 'a', 'l', 'P', 's', 'i']),
  (.char 0x3a9, ['C', 'a', 'p', 'i', 't', 'a', 'l', 'O', 'm', 'e', 'g', 'a']),
  (.char 0x3b1, ['A', 'l', 'p', 'h', 'a']),
  (.char 0x3b2, ['B', 'e', 't', 'a']),
  (.char 0x3b3, ['G', 'a', 'm', 'm', 'a']),
  (.char 0x3b4, ['D', 'e', 'l', 't', 'a']),
  (.char 0x3b5, ['C', 'u', 'r', 'l', 'y', 'E', 'p', 's', 'i', 'l', 'o', 'n']),
  (.char 0x3b6, ['Z', 'e', 't', 'a']),
  (.char 0x3b7, ['E', 't', 'a']),
  (.char 0x3b8, ['T', 'h', 'e', 't', 'a']),
  (.char 0x3b9, ['I', 'o', 't', 'a']),
  (.char 0x3ba, ['K', 'a', 'p', 'p', 'a']),
  (.char 0x3bb, ['L', 'a', 'm', 'b', 'd', 'a']),
  (.char 0x3bc, ['M', 'u']),
  (.char 0x3bd, ['N', 'u']),
  (.char 0x3be, ['X', 'i']),
  (.char 0x3bf, ['O', 'm', 'i', 'c', 'r', 'o', 'n']),
  (.char 0x3c0, ['P', 'i']),
  (.char 0x3c1, ['R', 'h', 'o']),
  (.char 0x3c2, ['F', 'i', 'n', 'a', 'l', 'S', 'i', 'g', 'm', 'a']),
  (.char 0x3c3, ['S', 'i', 'g', 'm', 'a']),
  (.char 0x3c4, ['T', 'a', 'u']),
  (.char 0x3c5, ['U', 'p', 's', 'i', 'l', 'o', 'n']),
  (.char 0x3c6, ['C', 'u', 'r', 'l', 'y', 'P', 'h', 'i']),
  (.char 0x3c7, ['C', 'h', 'i']),
  (.char 0x3c8, ['P', 's', 'i']),
  (.char 0x3c9, ['O', 'm', 'e', 'g', 'a']),
  (.char 0x3d1, ['C', 'u', 'r', 'l', 'y', 'T', 'h', 'e', 't', 'a']),
  (.char 0x3d2, ['C', 'u', 'r', 'l', 'y', 'C', 'a', 'p', 'i', 't', 'a', 'l', 'U', 'p', 's', 'i', 'l', 'o', 'n']),
  (.char 0x3d5, ['P', 'h', 'i']),
  (.char 0x3d6, ['C', 'u', 'r', 'l', 'y', 'P', 'i']),
  (.char 0x3da, ['C', 'a', 'p', 'i', 't', 'a', 'l', 'S', 't', 'i', 'g', 'm', 'a']),
  (.char 0x3db, ['S', 't', 'i', 'g', 'm', 'a']),
  (.char 0x3dc, ['C', 'a', 'p', 'i', 't', 'a', 'l', 'D', 'i', 'g', 'a', 'm', 'm', 'a']),
  (.char 0x3dd, ['D', 'i', 'g', 'a', 'm', 'm', 'a']),
  (.char 0x3de, ['C', 'a', 'p', 'i', 't', 'a', 'l', 'K', 'o', 'p', 'p', 'a']),
  (.char 0x3df, ['K', 'o', 'p', 'p', 'a']),
  (.char 0x3e0, ['C', 'a', 'p', 'i', 't', 'a', 'l', 'S', 'a', 'm', 'p', 'i']),
  (.char 0x3e1, ['S', 'a', 'm', 'p', 'i']),
  (.char 0x3f0, ['C', 'u', 'r', 'l', 'y', 'K', 'a', 'p', 'p', 'a']),
  (.char 0x3f1, ['C', 'u', 'r', 'l', 'y', 'R', 'h', 'o']),
  (.char 0x3f5, ['E', 'p', 's', 'i', 'l', 'o', 'n']),
  (.char 0x2005, ['T', 'h', 'i', 'c', 'k', 'S', 'p', 'a', 'c', 'e']),
  (.char 0x2009, ['T', 'h', 'i', 'n', 'S', 'p', 'a', 'c', 'e']),
  (.char 0x200a, ['V', 'e', 'r', 'y', 'T', 'h', 'i', 'n', 'S', 'p', 'a', 'c', 'e']),
  (.char 0x2010, ['H', 'y', 'p', 'h', 'e', 'n']),
  (.char 0x2013, ['D', 'a', 's', 'h']),
  (.char 0x2014, ['L', 'o', 'n', 'g', 'D', 'a', 's', 'h']),
  (.char 0x2018, ['O', 'p', 'e', 'n', 'C', 'u', 'r', 'l', 'y', 'Q', 'u', 'o', 't', 'e']),
  (.char 0x2019, ['C', 'l', 'o', 's', 'e', 'C', 'u', 'r', 'l', 'y', 'Q', 'u', 'o', 't', 'e']),
  (.char 0x201c, ['O', 'p', 'e', 'n', 'C', 'u', 'r', 'l', 'y', 'D', 'o', 'u', 'b', 'l', 'e', 'Q', 'u', 'o', 't', 'e']),
  (.char 0x201d, ['C', 'l', 'o', 's', 'e', 'C', 'u', 'r', 'l', 'y', 'D', 'o', 'u', 'b', 'l', 'e', 'Q', 'u', 'o', 't', 'e']),
  (.char 0x2020, ['D', 'a', 'g', 'g', 'e', 'r']),
  (.char 0x2021, ['D', 'o', 'u', 'b', 'l', 'e', 'D', 'a', 'g', 'g', 'e', 'r']),
  (.char 0x2022, ['B', 'u', 'l', 'l', 'e', 't']),
  (.char 0x2026, ['E', 'l', 'l', 'i', 'p', 's', 'i', 's']),
  (.char 0x2028, ['L', 'i', 'n', 'e', 'S', 'e', 'p', 'a', 'r', 'a', 't', 'o', 'r']),
  (.char 0x2029, ['P', 'a', 'r', 'a', 'g', 'r', 'a', 'p', 'h', 'S', 'e', 'p', 'a', 'r', 'a', 't', 'o', 'r']),
  (.char 0x2032, ['P', 'r', 'i', 'm', 'e']),
  (.char 0x2033, ['D', 'o', 'u', 'b', 'l', 'e', 'P', 'r', 'i', 'm', 'e']),
  (.char 0x2035, ['R', 'e', 'v', 'e', 'r', 's', 'e', 'P', 'r', 'i', 'm', 'e']),
  (.char 0x2036, ['R', 'e', 'v', 'e', 'r', 's', 'e', 'D', 'o', 'u', 'b', 'l', 'e', 'P', 'r', 'i', 'm', 'e']),
  (.char 0x2043, ['S', 'k', 'e', 'l', 'e', 't', 'o', 'n', 'I', 'n', 'd', 'i', 'c', 'a', 't', 'o', 'r']),
  (.char 0x205f, ['M', 'e', 'd', 'i', 'u', 'm', 'S', 'p', 'a', 'c', 'e']),
  (.char 0x2060, ['N', 'o', 'B', 'r', 'e', 'a', 'k']),
  (.char 0x2062, ['I', 'n', 'v', 'i', 's', 'i', 'b', 'l', 'e', 'T', 'i', 'm', 'e', 's']),
  (.char 0x20ac, ['E', 'u', 'r', 'o']),
  (.char 0x20b9, ['R', 'u', 'p', 'e', 'e']),
  (.char 0x210a, ['S', 'c', 'r', 'i', 'p', 't', 'G']),
  (.char 0x210b, ['S', 'c', 'r', 'i', 'p', 't', 'C', 'a', 'p', 'i', 't', 'a', 'l', 'H']),
  (.char 0x210c, ['G', 'o', 't', 'h', 'i', 'c', 'C', 'a', 'p', 'i', 't', 'a', 'l', 'H']),
  (.char 0x210f, ['H', 'B', 'a', 'r']),
  (.char 0x2110, ['S', 'c', 'r', 'i', 'p', 't', 'C', 'a', 'p', 'i', 't', 'a', 'l', 'I']),
  (.char 0x2111, ['G', 'o', 't', 'h', 'i', 'c', 'C', 'a', 'p', 'i', 't', 'a', 'l', 'I']),
  (.char 0x2112, ['S', 'c', 'r', 'i', 'p', 't', 'C', 'a', 'p', 'i', 't', 'a', 'l', 'L']),
  (.char 0x2113, ['S', 'c', 'r', 'i', 'p', 't', 'L']),
  (.char 0x2118, ['W', 'e', 'i', 'e', 'r', 's', 't', 'r', 'a', 's', 's', 'P']),
  (.char 0x211b, ['S', 'c', 'r', 'i', 'p', 't', 'C', 'a', 'p', 'i', 't', 'a', 'l', 'R']),
  (.char 0x211c, ['G', 'o', 't', 'h', 'i', 'c', 'C', 'a', 'p', 'i', 't', 'a', 'l', 'R']),
  (.char 0x2122, ['T', 'r', 'a', 'd', 'e', 'm', 'a', 'r', 'k']),
  (.char 0x2127, ['M', 'h', 'o']),
  (.char 0x2128, ['G', 'o', 't', 'h', 'i', 'c', 'C', 'a', 'p', 'i', 't', 'a', 'l', 'Z']),
  (.char 0x212b, ['A', 'n', 'g', 's', 't', 'r', 'o', 'm']),
  (.char 0x212c, ['S', 'c', 'r', 'i', 'p', 't', 'C', 'a', 'p', 'i', 't', 'a', 'l', 'B']),
  (.char 0x212d, ['G', 'o', 't', 'h', 'i', 'c', 'C', 'a', 'p', 'i', 't', 'a', 'l', 'C']),
  (.char 0x212f, ['S', 'c', 'r', 'i', 'p', 't', 'E']),
  (.char 0x2130, ['S', 'c', 'r', 'i', 'p', 't', 'C', 'a', 'p', 'i', 't', 'a', 'l', 'E']),
  (.char 0x2131, ['S', 'c', 'r', 'i', 'p', 't', 'C', 'a', 'p', 'i', 't', 'a', 'l', 'F']),
  (.char 0x2133, ['S', 'c', 'r', 'i', 'p', 't', 'C', 'a', 'p', 'i', 't', 'a', 'l', 'M']),
  (.char 0x2134, ['S', 'c', 'r', 'i', 'p', 't', 'O']),
  (.char 0x2135, ['A', 'l', 'e', 'p', 'h']),
  (.char 0x2136, ['B', 'e', 't']),
  (.char 0x2137, ['G', 'i', 'm', 'e', 'l']),
  (.char 0x2138, ['D', 'a', 'l', 'e', 't']),
  (.char 0x2190, ['L', 'e', 'f', 't', 'A', 'r', 'r', 'o', 'w']),
  (.char 0x2191, ['U', 'p', 'A', 'r', 'r', 'o', 'w']),
  (.char 0x2192, ['R', 'i', 'g', 'h', 't', 'A', 'r', 'r', 'o', 'w']),
  (.char 0x2193, ['D', 'o', 'w', 'n', 'A', 'r', 'r', 'o', 'w']),
  (.char 0x2194, ['L', 'e', 'f', 't', 'R', 'i', 'g', 'h', 't', 'A', 'r', 'r', 'o', 'w']),
  (.char 0x2195, ['U', 'p', 'D', 'o', 'w', 'n', 'A', 'r', 'r', 'o', 'w']),
  (.char 0x2196, ['U', 'p', 'p', 'e', 'r', 'L', 'e', 'f', 't', 'A', 'r', 'r', 'o', 'w']),
  (.char 0x2197, ['U', 'p', 'p', 'e', 'r', 'R', 'i', 'g', 'h', 't', 'A', 'r', 'r', 'o', 'w']),
  (.char 0x2198, ['L', 'o', 'w', 'e', 'r', 'R', 'i', 'g', 'h', 't', 'A', 'r', 'r', 'o', 'w']),
  (.char 0x2199, ['L', 'o', 'w', 'e', 'r', 'L', 'e', 'f', 't', 'A', 'r', 'r', 'o', 'w']),
  (.char 0x21a4, ['L', 'e', 'f', 't', 'T', 'e', 'e', 'A', 'r', 'r', 'o', 'w']),
  (.char 0x21a5, ['U', 'p', 'T', 'e', 'e', 'A', 'r', 'r', 'o', 'w']),
  (.char 0x21a6, ['R', 'i', 'g', 'h', 't', 'T', 'e', 'e', 'A', 'r', 'r', 'o', 'w']),
  (.char 0x21a7, ['D', 'o', 'w', 'n', 'T', 'e', 'e', 'A', 'r', 'r', 'o', 'w']),
  (.char 0x21b5, ['R', 'e', 't', 'u', 'r', 'n', 'I', 'n', 'd', 'i', 'c', 'a', 't', 'o', 'r']),
  (.char 0x21bc, ['L', 'e', 'f', 't', 'V', 'e', 'c', 't', 'o', 'r']),
  (.char 0x21bd, ['D', 'o', 'w', 'n', 'L', 'e', 'f', 't', 'V', 'e', 'c', 't', 'o', 'r']),
  (.char 0x21be, ['R', 'i', 'g', 'h', 't', 'U', 'p', 'V', 'e', 'c', 't', 'o', 'r']),
  (.char 0x21bf, ['L', 'e', 'f', 't', 'U', 'p', 'V', 'e', 'c', 't', 'o', 'r']),
  (.char 0x21c0, ['R', 'i', 'g', 'h', 't', 'V', 'e', 'c', 't', 'o', 'r']),
  (.char 0x21c1, ['D', 'o', 'w', 'n', 'R', 'i', 'g', 'h', 't', 'V', 'e', 'c', 't', 'o', 'r']),
  (.char 0x21c2, ['R', 'i', 'g', 'h', 't', 'D', 'o', 'w', 'n', 'V', 'e', 'c', 't', 'o', 'r']),
  (.char 0x21c3, ['L', 'e', 'f', 't', 'D', 'o', 'w', 'n', 'V', 'e', 'c', 't', 'o', 'r']),
  (.char 0x21c4, ['R', 'i', 'g', 'h', 't', 'A', 'r', 'r', 'o', 'w', 'L', 'e', 'f', 't', 'A', 'r', 'r', 'o', 'w']),
  (.char 0x21c5, ['U', 'p', 'A', 'r', 'r', 'o', 'w', 'D', 'o', 'w', 'n', 'A', 'r', 'r', 'o', 'w']),
  (.char 0x21c6, ['L', 'e', 'f', 't', 'A', 'r', 'r', 'o', 'w', 'R', 'i', 'g', 'h', 't', 'A', 'r', 'r', 'o', 'w']),
  (.char 0x21cb, ['R', 'e', 'v', 'e', 'r', 's', 'e', 'E', 'q', 'u', 'i', 'l', 'i', 'b', 'r', 'i', 'u', 'm']),
  (.char 0x21cc, ['E', 'q', 'u', 'i', 'l', 'i', 'b', 'r', 'i', 'u', 'm']),
  (.char 0x21d0, ['D', 'o', 'u', 'b', 'l', 'e', 'L', 'e', 'f', 't', 'A', 'r', 'r', 'o', 'w']),
  (.char 0x21d1, ['D', 'o', 'u', 'b', 'l', 'e', 'U', 'p', 'A', 'r', 'r', 'o', 'w']),
  (.char 0x21d2, ['D', 'o', 'u', 'b', 'l', 'e', 'R', 'i', 'g', 'h', 't', 'A', 'r', 'r', 'o', 'w']),
  (.char 0x21d3, ['D', 'o', 'u', 'b', 'l', 'e', 'D', 'o', 'w', 'n', 'A', 'r', 'r', 'o', 'w']),
  (.char 0x21d4, ['D', 'o', 'u', 'b', 'l', 'e', 'L', 'e', 'f', 't', 'R', 'i', 'g', 'h', 't', 'A', 'r', 'r', 'o', 'w']),
  (.char 0x21d5, ['D', 'o', 'u', 'b', 'l', 'e', 'U', 'p', 'D', 'o', 'w', 'n', 'A', 'r', 'r', 'o', 'w']),
  (.char 0x21e4, ['L', 'e', 'f', 't', 'A', 'r', 'r', 'o', 'w', 'B', 'a', 'r']),
  (.char 0x21e5, ['R', 'i', 'g', 'h', 't', 'A', 'r', 'r', 'o', 'w', 'B', 'a', 'r']),
  (.char 0x21f5, ['D', 'o', 'w', 'n', 'A', 'r', 'r', 'o', 'w', 'U', 'p', 'A', 'r', 'r', 'o', 'w']),
  (.char 0x2200, ['F', 'o', 'r', 'A', 'l', 'l']),
  (.char 0x2202, ['P', 'a', 'r', 't', 'i', 'a', 'l', 'D']),
  (.char 0x2203, ['E', 'x', 'i', 's', 't', 's']),
  (.char 0x2204, ['N', 'o', 't', 'E', 'x', 'i', 's', 't', 's']),
  (.char 0x2205, ['E', 'm', 'p', 't', 'y', 'S', 'e', 't']),
  (.char 0x2207, ['D', 'e', 'l']),
  (.char 0x2208, ['E', 'l', 'e', 'm', 'e', 'n', 't']),
  (.char 0x2209, ['N', 'o', 't', 'E', 'l', 'e', 'm', 'e', 'n', 't']),
  (.char 0x220b, ['R', 'e', 'v', 'e', 'r', 's', 'e', 'E', 'l', 'e', 'm', 'e', 'n', 't']),
  (.char 0x220c, ['N', 'o', 't', 'R', 'e', 'v', 'e', 'r', 's', 'e', 'E', 'l', 'e', 'm', 'e', 'n', 't']),
  (.char 0x220d, ['S', 'u', 'c', 'h', 'T', 'h', 'a', 't']),
  (.char 0x220f, ['P', 'r', 'o', 'd', 'u', 'c', 't']),
  (.char 0x2210, ['C', 'o', 'p', 'r', 'o', 'd', 'u', 'c', 't']),
  (.char 0x2211, ['S', 'u', 'm']),
  (.char 0x2212, ['M', 'i', 'n', 'u', 's']),
  (.char 0x2213, ['M', 'i', 'n', 'u', 's', 'P', 'l', 'u', 's']),
  (.char 0x2215, ['D', 'i', 'v', 'i', 's', 'i', 'o', 'n', 'S', 'l', 'a', 's', 'h']),
  (.char 0x2216, ['B', 'a', 'c', 'k', 's', 'l', 'a', 's', 'h']),
  (.char 0x2218, ['S', 'm', 'a', 'l', 'l', 'C', 'i', 'r', 'c', 'l', 'e']),
  (.char 0x221a, ['S', 'q', 'r', 't']),
  (.char 0x221b, ['C', 'u', 'b', 'e', 'R', 'o', 'o', 't']),
  (.char 0x221d, ['P', 'r', 'o', 'p', 'o', 'r', 't', 'i', 'o', 'n', 'a', 'l']),
  (.char 0x221e, ['I', 'n', 'f', 'i', 'n', 'i', 't', 'y']),
  (.char 0x221f, ['R', 'i', 'g', 'h', 't', 'A', 'n', 'g', 'l', 'e']),
  (.char 0x2220, ['A', 'n', 'g', 'l', 'e']),
  (.char 0x2221, ['M', 'e', 'a', 's', 'u', 'r', 'e', 'd', 'A', 'n', 'g', 'l', 'e']),
  (.char 0x2222, ['S', 'p', 'h', 'e', 'r', 'i', 'c', 'a', 'l', 'A', 'n', 'g', 'l', 'e']),
  (.char 0x2223, ['D', 'i', 'v', 'i', 'd', 'e', 's']),
  (.char 0x2225, ['D', 'o', 'u', 'b', 'l', 'e', 'V', 'e', 'r', 't', 'i', 'c', 'a', 'l', 'B', 'a', 'r']),
  (.char 0x2226, ['N', 'o', 't', 'D', 'o', 'u', 'b', 'l', 'e', 'V', 'e', 'r', 't', 'i', 'c', 'a', 'l', 'B', 'a', 'r']),
  (.char 0x2227, ['A', 'n', 'd']),
  (.char 0x2228, ['O', 'r']),
  (.char 0x222b, ['I', 'n', 't', 'e', 'g', 'r', 'a', 'l']),
  (.char 0x222e, ['C', 'o', 'n', 't', 'o', 'u', 'r', 'I', 'n', 't', 'e', 'g', 'r', 'a', 'l']),
  (.char 0x222f, ['D', 'o', 'u', 'b', 'l', 'e', 'C', 'o', 'n', 't', 'o', 'u', 'r', 'I', 'n', 't', 'e', 'g', 'r', 'a', 'l']),
  (.char 0x2232, ['C', 'l', 'o', 'c', 'k', 'w', 'i', 's', 'e', 'C', 'o', 'n', 't', 'o', 'u', 'r', 'I', 'n', 't', 'e', 'g', 'r', 'a', 'l']),
  (.char 0x2233, ['C', 'o', 'u', 'n', 't', 'e', 'r', 'C', 'l', 'o', 'c', 'k', 'w', 'i', 's', 'e', 'C', 'o', 'n', 't', 'o', 'u', 'r', 'I', 'n', 't', 'e', 'g', 'r', 'a', 'l']),
  (.char 0x2234, ['T', 'h', 'e', 'r', 'e', 'f', 'o', 'r', 'e']),
  (.char 0x2235, ['B', 'e', 'c', 'a', 'u', 's', 'e']),
  (.char 0x2236, ['C', 'o', 'l', 'o', 'n']),
  (.char 0x2237, ['P', 'r', 'o', 'p', 'o', 'r', 't', 'i', 'o', 'n']),
  (.char 0x223c, ['T', 'i', 'l', 'd', 'e']),
  (.char 0x2240, ['V', 'e', 'r', 't', 'i', 'c', 'a', 'l', 'T', 'i', 'l', 'd', 'e']),
  (.char 0x2241, ['N', 'o', 't', 'T', 'i', 'l', 'd', 'e']),
  (.char 0x2242, ['E', 'q', 'u', 'a', 'l', 'T', 'i', 'l', 'd', 'e']),
  (.char 0x2243, ['T', 'i', 'l', 'd', 'e', 'E', 'q', 'u', 'a', 'l']),
  (.char 0x2244, ['N', 'o', 't', 'T', 'i', 'l', 'd', 'e', 'E', 'q', 'u', 'a', 'l']),
  (.char 0x2245, ['T', 'i', 'l', 'd', 'e', 'F', 'u', 'l', 'l', 'E', 'q', 'u', 'a', 'l']),
  (.char 0x2247, ['N', 'o', 't', 'T', 'i', 'l', 'd', 'e', 'F', 'u', 'l', 'l', 'E', 'q', 'u', 'a', 'l']),
  (.char 0x2248, ['T', 'i', 'l', 'd', 'e', 'T', 'i', 'l', 'd', 'e']),
  (.char 0x2249, ['N', 'o', 't', 'T', 'i', 'l', 'd', 'e', 'T', 'i', 'l', 'd', 'e']),
  (.char 0x224d, ['C', 'u', 'p', 'C', 'a', 'p']),
  (.char 0x224e, ['H', 'u', 'm', 'p', 'D', 'o', 'w', 'n', 'H', 'u', 'm', 'p']),
  (.char 0x224f, ['H', 'u', 'm', 'p', 'E', 'q', 'u', 'a', 'l']),
  (.char 0x2250, ['D', 'o', 't', 'E', 'q', 'u', 'a', 'l']),
  (.char 0x2260, ['N', 'o', 't', 'E', 'q', 'u', 'a', 'l']),
  (.char 0x2261, ['C', 'o', 'n', 'g', 'r', 'u', 'e', 'n', 't']),
  (.char 0x2262, ['N', 'o', 't', 'C', 'o', 'n', 'g', 'r', 'u', 'e', 'n', 't']),
  (.char 0x2264, ['L', 'e', 's', 's', 'E', 'q', 'u', 'a', 'l']),
  (.char 0x2265, ['G', 'r', 'e', 'a', 't', 'e', 'r', 'E', 'q', 'u', 'a', 'l']),
  (.char 0x2266, ['L', 'e', 's', 's', 'F', 'u', 'l', 'l', 'E', 'q', 'u', 'a', 'l']),
  (.char 0x2267, ['G', 'r', 'e', 'a', 't', 'e', 'r', 'F', 'u', 'l', 'l', 'E', 'q', 'u', 'a', 'l']),
  (.char 0x2268, ['N', 'o', 't', 'L', 'e', 's', 's', 'F', 'u', 'l', 'l', 'E', 'q', 'u', 'a', 'l']),
  (.char 0x2269, ['N', 'o', 't', 'G', 'r', 'e', 'a', 't', 'e', 'r', 'F', 'u', 'l', 'l', 'E', 'q', 'u', 'a', 'l']),
  (.char 0x226a, ['L', 'e', 's', 's', 'L', 'e', 's', 's']),
  (.char 0x226b, ['G', 'r', 'e', 'a', 't', 'e', 'r', 'G', 'r', 'e', 'a', 't', 'e', 'r']),
  (.char 0x226d, ['N', 'o', 't', 'C', 'u', 'p', 'C', 'a', 'p']),
  (.char 0x226e, ['N', 'o', 't', 'L', 'e', 's', 's']),
  (.char 0x226f, ['N', 'o', 't', 'G', 'r', 'e', 'a', 't', 'e', 'r']),
  (.char 0x2270, ['N', 'o', 't', 'L', 'e', 's', 's', 'E', 'q', 'u', 'a', 'l']),
  (.char 0x2271, ['N', 'o', 't', 'G', 'r', 'e', 'a', 't', 'e', 'r', 'E', 'q', 'u', 'a', 'l']),
  (.char 0x2272, ['L', 'e', 's', 's', 'T', 'i', 'l', 'd', 'e']),
  (.char 0x2273, ['G', 'r', 'e', 'a', 't', 'e', 'r', 'T', 'i', 'l', 'd', 'e']),
  (.char 0x2274, ['N', 'o', 't', 'L', 'e', 's', 's', 'T', 'i', 'l', 'd', 'e']),
  (.char 0x2275, ['N', 'o', 't', 'G', 'r', 'e', 'a', 't', 'e', 'r', 'T', 'i', 'l', 'd', 'e']),
  (.char 0x2276, ['L', 'e', 's', 's', 'G', 'r', 'e', 'a', 't', 'e', 'r']),
  (.char 0x2277, ['G', 'r', 'e', 'a', 't', 'e', 'r', 'L', 'e', 's', 's']),
  (.char 0x2278, ['N', 'o', 't', 'L', 'e', 's', 's', 'G', 'r', 'e', 'a', 't', 'e', 'r']),
  (.char 0x2279, ['N', 'o', 't', 'G', 'r', 'e', 'a', 't', 'e', 'r', 'L', 'e', 's', 's']),
  (.char 0x227a, ['P', 'r', 'e', 'c', 'e', 'd', 'e', 's']),
  (.char 0x227b, ['S', 'u', 'c', 'c', 'e', 'e', 'd', 's']),
  (.char 0x227c, ['P', 'r', 'e', 'c', 'e', 'd', 'e', 's', 'S', 'l', 'a', 'n', 't', 'E', 'q', 'u', 'a', 'l']),
  (.char 0x227d, ['S', 'u', 'c', 'c', 'e', 'e', 'd', 's', 'S', 'l', 'a', 'n', 't', 'E', 'q', 'u', 'a', 'l']),
  (.char 0x227e, ['P', 'r', 'e', 'c', 'e', 'd', 'e', 's', 'T', 'i', 'l', 'd', 'e']),
  (.char 0x227f, ['S', 'u', 'c', 'c', 'e', 'e', 'd', 's', 'T', 'i', 'l', 'd', 'e']),
  (.char 0x2280, ['N', 'o', 't', 'P', 'r', 'e', 'c', 'e', 'd', 'e', 's']),
  (.char 0x2281, ['N', 'o', 't', 'S', 'u', 'c', 'c', 'e', 'e', 'd', 's']),
  (.char 0x2282, ['S', 'u', 'b', 's', 'e', 't']),
  (.char 0x2283, ['S', 'u', 'p', 'e', 'r', 's', 'e', 't']),
  (.char 0x2284, ['N', 'o', 't', 'S', 'u', 'b', 's', 'e', 't']),
  (.char 0x2285, ['N', 'o', 't', 'S', 'u', 'p', 'e', 'r', 's', 'e', 't']),
  (.char 0x2286, ['S', 'u', 'b', 's', 'e', 't', 'E', 'q', 'u', 'a', 'l']),
  (.char 0x2287, ['S', 'u', 'p', 'e', 'r', 's', 'e', 't', 'E', 'q', 'u', 'a', 'l']),
  (.char 0x2288, ['N', 'o', 't', 'S', 'u', 'b', 's', 'e', 't', 'E', 'q', 'u', 'a', 'l']),
  (.char 0x2289, ['N', 'o', 't', 'S', 'u', 'p', 'e', 'r', 's', 'e', 't', 'E', 'q', 'u', 'a', 'l']),
  (.char 0x228e, ['U', 'n', 'i', 'o', 'n', 'P', 'l', 'u', 's']),
  (.char 0x228f, ['S', 'q', 'u', 'a', 'r', 'e', 'S', 'u', 'b', 's', 'e', 't']),
  (.char 0x2290, ['S', 'q', 'u', 'a', 'r', 'e', 'S', 'u', 'p', 'e', 'r', 's', 'e', 't']),
  (.char 0x2291, ['S', 'q', 'u', 'a', 'r', 'e', 'S', 'u', 'b', 's', 'e', 't', 'E', 'q', 'u', 'a', 'l']),
  (.char 0x2292, ['S', 'q', 'u', 'a', 'r', 'e', 'S', 'u', 'p', 'e', 'r', 's', 'e', 't', 'E', 'q', 'u', 'a', 'l']),
  (.char 0x2293, ['S', 'q', 'u', 'a', 'r', 'e', 'I', 'n', 't', 'e', 'r', 's', 'e', 'c', 't', 'i', 'o', 'n']),
  (.char 0x2294, ['S', 'q', 'u', 'a', 'r', 'e', 'U', 'n', 'i', 'o', 'n']),
  (.char 0x2295, ['C', 'i', 'r', 'c', 'l', 'e', 'P', 'l', 'u', 's']),
  (.char 0x2296, ['C', 'i', 'r', 'c', 'l', 'e', 'M', 'i', 'n', 'u', 's']),
  (.char 0x2297, ['C', 'i', 'r', 'c', 'l', 'e', 'T', 'i', 'm', 'e', 's']),
  (.char 0x2299, ['C', 'i', 'r', 'c', 'l', 'e', 'D', 'o', 't']),
  (.char 0x22a2, ['R', 'i', 'g', 'h', 't', 'T', 'e', 'e']),
  (.char 0x22a3, ['L', 'e', 'f', 't', 'T', 'e', 'e']),
  (.char 0x22a4, ['D', 'o', 'w', 'n', 'T', 'e', 'e']),
  (.char 0x22a5, ['U', 'p', 'T', 'e', 'e']),
  (.char 0x22a8, ['D', 'o', 'u', 'b', 'l', 'e', 'R', 'i', 'g', 'h', 't', 'T', 'e', 'e']),
  (.char 0x22b2, ['L', 'e', 'f', 't', 'T', 'r', 'i', 'a', 'n', 'g', 'l', 'e']),
  (.char 0x22b3, ['R', 'i', 'g', 'h', 't', 'T', 'r', 'i', 'a', 'n', 'g', 'l', 'e']),
  (.char 0x22b4, ['L', 'e', 'f', 't', 'T', 'r', 'i', 'a', 'n', 'g', 'l', 'e', 'E', 'q', 'u', 'a', 'l']),
  (.char 0x22b5, ['R', 'i', 'g', 'h', 't', 'T', 'r', 'i', 'a', 'n', 'g', 'l', 'e', 'E', 'q', 'u', 'a', 'l']),
  (.char 0x22bb, ['X', 'o', 'r']),
  (.char 0x22bc, ['N', 'a', 'n', 'd']),
  (.char 0x22bd, ['N', 'o', 'r']),
  (.char 0x22c0, ['W', 'e', 'd', 'g', 'e']),
  (.char 0x22c1, ['V', 'e', 'e']),
  (.char 0x22c2, ['I', 'n', 't', 'e', 'r', 's', 'e', 'c', 't', 'i', 'o', 'n']),
  (.char 0x22c3, ['U', 'n', 'i', 'o', 'n']),
  (.char 0x22c4, ['D', 'i', 'a', 'm', 'o', 'n', 'd']),
  (.char 0x22c6, ['S', 't', 'a', 'r']),
  (.char 0x22da, ['L', 'e', 's', 's', 'E', 'q', 'u', 'a', 'l', 'G', 'r', 'e', 'a', 't', 'e', 'r']),
  (.char 0x22db, ['G', 'r', 'e', 'a', 't', 'e', 'r', 'E', 'q', 'u', 'a', 'l', 'L', 'e', 's', 's']),
  (.char 0x22e0, ['N', 'o', 't', 'P', 'r', 'e', 'c', 'e', 'd', 'e', 's', 'S', 'l', 'a', 'n', 't', 'E', 'q', 'u', 'a', 'l']),
  (.char 0x22e1, ['N', 'o', 't', 'S', 'u', 'c', 'c', 'e', 'e', 'd', 's', 'S', 'l', 'a', 'n', 't', 'E', 'q', 'u', 'a', 'l']),
  (.char 0x22e2, ['N', 'o', 't', 'S', 'q', 'u', 'a', 'r', 'e', 'S', 'u', 'b', 's', 'e', 't', 'E', 'q', 'u', 'a', 'l']),
  (.char 0x22e3, ['N', 'o', 't', 'S', 'q', 'u', 'a', 'r', 'e', 'S', 'u', 'p', 'e', 'r', 's', 'e', 't', 'E', 'q', 'u', 'a', 'l']),
  (.char 0x22e8, ['N', 'o', 't', 'P', 'r', 'e', 'c', 'e', 'd', 'e', 's', 'T', 'i', 'l', 'd', 'e']),
  (.char 0x22e9, ['N', 'o', 't', 'S', 'u', 'c', 'c', 'e', 'e', 'd', 's', 'T', 'i', 'l', 'd', 'e']),
  (.char 0x22ea, ['N', 'o', 't', 'L', 'e', 'f', 't', 'T', 'r', 'i', 'a', 'n', 'g', 'l', 'e']),
  (.char 0x22eb, ['N', 'o', 't', 'R', 'i', 'g', 'h', 't', 'T', 'r', 'i', 'a', 'n', 'g', 'l', 'e']),
  (.char 0x22ec, ['N', 'o', 't', 'L', 'e', 'f', 't', 'T', 'r', 'i', 'a', 'n', 'g', 'l', 'e', 'E', 'q', 'u', 'a', 'l']),
  (.char 0x22ed, ['N', 'o', 't', 'R', 'i', 'g', 'h', 't', 'T', 'r', 'i', 'a', 'n', 'g', 'l', 'e', 'E', 'q', 'u', 'a', 'l']),
  (.char 0x22ee, ['V', 'e', 'r', 't', 'i', 'c', 'a', 'l', 'E', 'l', 'l', 'i', 'p', 's', 'i', 's']),
  (.char 0x22ef, ['C', 'e', 'n', 't', 'e', 'r', 'E', 'l', 'l', 'i', 'p', 's', 'i', 's']),
  (.char 0x22f0, ['A', 's', 'c', 'e', 'n', 'd', 'i', 'n', 'g', 'E', 'l', 'l', 'i', 'p', 's', 'i', 's']),
  (.char 0x22f1, ['D', 'e', 's', 'c', 'e', 'n', 'd', 'i', 'n', 'g', 'E', 'l', 'l', 'i', 'p', 's', 'i', 's']),
  (.char 0x2300, ['D', 'i', 'a', 'm', 'e', 't', 'e', 'r']),
  (.char 0x2308, ['L', 'e', 'f', 't', 'C', 'e', 'i', 'l', 'i', 'n', 'g']),
  (.char 0x2309, ['R', 'i', 'g', 'h', 't', 'C', 'e', 'i', 'l', 'i', 'n', 'g']),
  (.char 0x230a, ['L', 'e', 'f', 't', 'F', 'l', 'o', 'o', 'r']),
  (.char 0x230b, ['R', 'i', 'g', 'h', 't', 'F', 'l', 'o', 'o', 'r']),
  (.char 0x2318, ['C', 'l', 'o', 'v', 'e', 'r', 'L', 'e', 'a', 'f']),
  (.char 0x231a, ['W', 'a', 't', 'c', 'h', 'I', 'c', 'o', 'n']),
  (.char 0x2322, ['C', 'a', 'p']),
  (.char 0x2323, ['C', 'u', 'p']),
  (.char 0x2329, ['L', 'e', 'f', 't', 'A', 'n', 'g', 'l', 'e', 'B', 'r', 'a', 'c', 'k', 'e', 't']),
  (.char 0x232a, ['R', 'i', 'g', 'h', 't', 'A', 'n', 'g', 'l', 'e', 'B', 'r', 'a', 'c', 'k', 'e', 't']),
  (.char 0x23b4, ['O', 'v', 'e', 'r', 'B', 'r', 'a', 'c', 'k', 'e', 't']),
  (.char 0x23b5, ['U', 'n', 'd', 'e', 'r', 'B', 'r', 'a', 'c', 'k', 'e', 't']),
  (.char 0x2423, ['S', 'p', 'a', 'c', 'e', 'I', 'n', 'd', 'i', 'c', 'a', 't', 'o', 'r']),
  (.char 0x2500, ['H', 'o', 'r', 'i', 'z', 'o', 'n', 't', 'a', 'l', 'L', 'i', 'n', 'e']),
  (.char 0x2502, ['V', 'e', 'r', 't', 'i', 'c', 'a', 'l', 'L', 'i', 'n', 'e']),
  (.char 0x25a0, ['F', 'i', 'l', 'l', 'e', 'd', 'S', 'q', 'u', 'a', 'r', 'e']),
  (.char 0x25a1, ['E', 'm', 'p', 't', 'y', 'S', 'q', 'u', 'a', 'r', 'e']),
  (.char 0x25aa, ['F', 'i', 'l', 'l', 'e', 'd', 'V', 'e', 'r', 'y', 'S', 'm', 'a', 'l', 'l', 'S', 'q', 'u', 'a', 'r', 'e']),
  (.char 0x25ab, ['E', 'm', 'p', 't', 'y', 'V', 'e', 'r', 'y', 'S', 'm', 'a', 'l', 'l', 'S', 'q', 'u', 'a', 'r', 'e']),
  (.char 0x25ae, ['F', 'i', 'l', 'l', 'e', 'd', 'R', 'e', 'c', 't', 'a', 'n', 'g', 'l', 'e']),
  (.char 0x25af, ['E', 'm', 'p', 't', 'y', 'R', 'e', 'c', 't', 'a', 'n', 'g', 'l', 'e']),
  (.char 0x25b2, ['F', 'i', 'l', 'l', 'e', 'd', 'U', 'p', 'T', 'r', 'i', 'a', 'n', 'g', 'l', 'e']),
  (.char 0x25b3, ['E', 'm', 'p', 't', 'y', 'U', 'p', 'T', 'r', 'i', 'a', 'n', 'g', 'l', 'e']),
  (.char 0x25b4, ['U', 'p', 'P', 'o', 'i', 'n', 't', 'e', 'r']),
  (.char 0x25b6, ['F', 'i', 'l', 'l', 'e', 'd', 'R', 'i', 'g', 'h', 't', 'T', 'r', 'i', 'a', 'n', 'g', 'l', 'e']),
  (.char 0x25b8, ['R', 'i', 'g', 'h', 't', 'P', 'o', 'i', 'n', 't', 'e', 'r']),
  (.char 0x25bc, ['F', 'i', 'l', 'l', 'e', 'd', 'D', 'o', 'w', 'n', 'T', 'r', 'i', 'a', 'n', 'g', 'l', 'e']),
  (.char 0x25bd, ['E', 'm', 'p', 't', 'y', 'D', 'o', 'w', 'n', 'T', 'r', 'i', 'a', 'n', 'g', 'l', 'e']),
  (.char 0x25be, ['D', 'o', 'w', 'n', 'P', 'o', 'i', 'n', 't', 'e', 'r']),
  (.char 0x25c0, ['F', 'i', 'l', 'l', 'e', 'd', 'L', 'e', 'f', 't', 'T', 'r', 'i', 'a', 'n', 'g', 'l', 'e']),
  (.char 0x25c2, ['L', 'e', 'f', 't', 'P', 'o', 'i', 'n', 't', 'e', 'r']),
  (.char 0x25c6, ['F', 'i', 'l', 'l', 'e', 'd', 'D', 'i', 'a', 'm', 'o', 'n', 'd']),
  (.char 0x25c7, ['E', 'm', 'p', 't', 'y', 'D', 'i', 'a', 'm', 'o', 'n', 'd']),
  (.char 0x25cb, ['E', 'm', 'p', 't', 'y', 'C', 'i', 'r', 'c', 'l', 'e']),
  (.char 0x25cf, ['F', 'i', 'l', 'l', 'e', 'd', 'C', 'i', 'r', 'c', 'l', 'e']),
  (.char 0x25e6, ['E', 'm', 'p', 't', 'y', 'S', 'm', 'a', 'l', 'l', 'C', 'i', 'r', 'c', 'l', 'e']),
  (.char 0x25fb, ['E', 'm', 'p', 't', 'y', 'S', 'm', 'a', 'l', 'l', 'S', 'q', 'u', 'a', 'r', 'e']),
  (.char 0x25fc, ['F', 'i', 'l', 'l', 'e', 'd', 'S', 'm', 'a', 'l', 'l', 'S', 'q', 'u', 'a', 'r', 'e']),
  (.char 0x2605, ['F', 'i', 'v', 'e', 'P', 'o', 'i', 'n', 't', 'e', 'd', 'S', 't', 'a', 'r']),
  (.char 0x2609, ['S', 'u', 'n']),
  (.char 0x2611, ['C', 'h', 'e', 'c', 'k', 'm', 'a', 'r', 'k', 'e', 'd', 'B', 'o', 'x']),
  (.char 0x2612, ['C', 'h', 'e', 'c', 'k', 'e', 'd', 'B', 'o', 'x']),
  (.char 0x2639, ['S', 'a', 'd', 'S', 'm', 'i', 'l', 'e', 'y']),
  (.char 0x263a, ['H', 'a', 'p', 'p', 'y', 'S', 'm', 'i', 'l', 'e', 'y']),
  (.char 0x263e, ['M', 'o', 'o', 'n']),
  (.char 0x263f, ['M', 'e', 'r', 'c', 'u', 'r', 'y']),
  (.char 0x2640, ['V', 'e', 'n', 'u', 's']),
  (.char 0x2642, ['M', 'a', 'r', 's']),
  (.char 0x2643, ['J', 'u', 'p', 'i', 't', 'e', 'r']),
  (.char 0x2644, ['S', 'a', 't', 'u', 'r', 'n']),
  (.char 0x2646, ['N', 'e', 'p', 't', 'u', 'n', 'e']),
  (.char 0x2647, ['P', 'l', 'u', 't', 'o']),
  (.char 0x2648, ['A', 'r', 'i', 'e', 's', 'S', 'i', 'g', 'n']),
  (.char 0x2649, ['T', 'a', 'u', 'r', 'u', 's', 'S', 'i', 'g', 'n']),
  (.char 0x264a, ['G', 'e', 'm', 'i', 'n', 'i', 'S', 'i', 'g', 'n']),
  (.char 0x264b, ['C', 'a', 'n', 'c', 'e', 'r', 'S', 'i', 'g', 'n']),
  (.char 0x264c, ['L', 'e', 'o', 'S', 'i', 'g', 'n']),
  (.char 0x264d, ['V', 'i', 'r', 'g', 'o', 'S', 'i', 'g', 'n']),
  (.char 0x264e, ['L', 'i', 'b', 'r', 'a', 'S', 'i', 'g', 'n']),
  (.char 0x264f, ['S', 'c', 'o', 'r', 'p', 'i', 'o', 'S', 'i', 'g', 'n']),
  (.char 0x2650, ['S', 'a', 'g', 'i', 't', 't', 'a', 'r', 'i', 'u', 's', 'S', 'i', 'g', 'n']),
  (.char 0x2651, ['C', 'a', 'p', 'r', 'i', 'c', 'o', 'r', 'n', 'S', 'i', 'g', 'n']),
  (.char 0x2652, ['A', 'q', 'u', 'a', 'r', 'i', 'u', 's', 'S', 'i', 'g', 'n']),
  (.char 0x2653, ['P', 'i', 's', 'c', 'e', 's', 'S', 'i', 'g', 'n']),
  (.char 0x2654, ['W', 'h', 'i', 't', 'e', 'K', 'i', 'n', 'g']),
  (.char 0x2655, ['W', 'h', 'i', 't', 'e', 'Q', 'u', 'e', 'e', 'n']),
  (.char 0x2656, ['W', 'h', 'i', 't', 'e', 'R', 'o', 'o', 'k']),
  (.char 0x2657, ['W', 'h', 'i', 't', 'e', 'B', 'i', 's', 'h', 'o', 'p']),
  (.char 0x2658, ['W', 'h', 'i', 't', 'e', 'K', 'n', 'i', 'g', 'h', 't']),
  (.char 0x2659, ['W', 'h', 'i', 't', 'e', 'P', 'a', 'w', 'n']),
  (.char 0x265a, ['B', 'l', 'a', 'c', 'k', 'K', 'i', 'n', 'g']),
  (.char 0x265b, ['B', 'l', 'a', 'c', 'k', 'Q', 'u', 'e', 'e', 'n']),
  (.char 0x265c, ['B', 'l', 'a', 'c', 'k', 'R', 'o', 'o', 'k']),
  (.char 0x265d, ['B', 'l', 'a', 'c', 'k', 'B', 'i', 's', 'h', 'o', 'p']),
  (.char 0x265e, ['B', 'l', 'a', 'c', 'k', 'K', 'n', 'i', 'g', 'h', 't']),
  (.char 0x265f, ['B', 'l', 'a', 'c', 'k', 'P', 'a', 'w', 'n']),
  (.char 0x2660, ['S', 'p', 'a', 'd', 'e', 'S', 'u', 'i', 't']),
  (.char 0x2661, ['H', 'e', 'a', 'r', 't', 'S', 'u', 'i', 't']),
  (.char 0x2662, ['D', 'i', 'a', 'm', 'o', 'n', 'd', 'S', 'u', 'i', 't']),
  (.char 0x2663, ['C', 'l', 'u', 'b', 'S', 'u', 'i', 't']),
  (.char 0x2669, ['Q', 'u', 'a', 'r', 't', 'e', 'r', 'N', 'o', 't', 'e']),
  (.char 0x266a, ['E', 'i', 'g', 'h', 't', 'h', 'N', 'o', 't', 'e']),
  (.char 0x266b, ['B', 'e', 'a', 'm', 'e', 'd', 'E', 'i', 'g', 'h', 't', 'h', 'N', 'o', 't', 'e']),
  (.char 0x266c, ['B', 'e', 'a', 'm', 'e', 'd', 'S', 'i', 'x', 't', 'e', 'e', 'n', 't', 'h', 'N', 'o', 't', 'e']),
  (.char 0x266d, ['F', 'l', 'a', 't']),
  (.char 0x266e, ['N', 'a', 't', 'u', 'r', 'a', 'l']),
  (.char 0x266f, ['S', 'h', 'a', 'r', 'p']),
  (.char 0x26e2, ['U', 'r', 'a', 'n', 'u', 's']),
  (.char 0x2713, ['C', 'h', 'e', 'c', 'k', 'm', 'a', 'r', 'k']),
  (.char 0x2736, ['S', 'i', 'x', 'P', 'o', 'i', 'n', 't', 'e', 'd', 'S', 't', 'a', 'r']),
  (.char 0x27c2, ['P', 'e', 'r', 'p', 'e', 'n', 'd', 'i', 'c', 'u', 'l', 'a', 'r']),
  (.char 0x27f5, ['L', 'o', 'n', 'g', 'L', 'e', 'f', 't', 'A', 'r', 'r', 'o', 'w']),
  (.char 0x27f6, ['L', 'o', 'n', 'g', 'R', 'i', 'g', 'h', 't', 'A', 'r', 'r', 'o', 'w']),
  (.char 0x27f7, ['L', 'o', 'n', 'g', 'L', 'e', 'f', 't', 'R', 'i', 'g', 'h', 't', 'A', 'r', 'r', 'o', 'w']),
  (.char 0x27f8, ['D', 'o', 'u', 'b', 'l', 'e', 'L', 'o', 'n', 'g', 'L', 'e', 'f', 't', 'A', 'r', 'r', 'o', 'w']),
  (.char 0x27f9, ['D', 'o', 'u', 'b', 'l', 'e', 'L', 'o', 'n', 'g', 'R', 'i', 'g', 'h', 't', 'A', 'r', 'r', 'o', 'w']),
  (.char 0x27fa, ['D', 'o', 'u', 'b', 'l', 'e', 'L', 'o', 'n', 'g', 'L', 'e', 'f', 't', 'R', 'i', 'g', 'h', 't', 'A', 'r', 'r', 'o', 'w']),
  (.char 0x2912, ['U', 'p', 'A', 'r', 'r', 'o', 'w', 'B', 'a', 'r']),
  (.char 0x2913, ['D', 'o', 'w', 'n', 'A', 'r', 'r', 'o', 'w', 'B', 'a', 'r']),
  (.char 0x294e, ['L', 'e', 'f', 't', 'R', 'i', 'g', 'h', 't', 'V', 'e', 'c', 't', 'o', 'r']),
  (.char 0x294f, ['R', 'i', 'g', 'h', 't', 'U', 'p', 'D', 'o', 'w', 'n', 'V', 'e', 'c', 't', 'o', 'r']),
  (.char 0x2950, ['D', 'o', 'w', 'n', 'L', 'e', 'f', 't', 'R', 'i', 'g', 'h', 't', 'V', 'e', 'c', 't', 'o', 'r']),
  (.char 0x2951, ['L', 'e', 'f', 't', 'U', 'p', 'D', 'o', 'w', 'n', 'V', 'e', 'c', 't', 'o', 'r']),
  (.char 0x2952, ['L', 'e', 'f', 't', 'V', 'e', 'c', 't', 'o', 'r', 'B', 'a', 'r']),
  (.char 0x2953, ['R', 'i', 'g', 'h', 't', 'V', 'e', 'c', 't', 'o', 'r', 'B', 'a', 'r']),
  (.char 0x2954, ['R', 'i', 'g', 'h', 't', 'U', 'p', 'V', 'e', 'c', 't', 'o', 'r', 'B', 'a', 'r']),
  (.char 0x2955, ['R', 'i', 'g', 'h', 't', 'D', 'o', 'w', 'n', 'V', 'e', 'c', 't', 'o', 'r', 'B', 'a', 'r']),
  (.char 0x2956, ['D', 'o', 'w', 'n', 'L', 'e', 'f', 't', 'V', 'e', 'c', 't', 'o', 'r', 'B', 'a', 'r']),
  (.char 0x2957, ['D', 'o', 'w', 'n', 'R', 'i', 'g', 'h', 't', 'V', 'e', 'c', 't', 'o', 'r', 'B', 'a', 'r']),
  (.char 0x2958, ['L', 'e', 'f', 't', 'U', 'p', 'V', 'e', 'c', 't', 'o', 'r', 'B', 'a', 'r']),
  (.char 0x2959, ['L', 'e', 'f', 't', 'D', 'o', 'w', 'n', 'V', 'e', 'c', 't', 'o', 'r', 'B', 'a', 'r']),
  (.char 0x295a, ['L', 'e', 'f', 't', 'T', 'e', 'e', 'V', 'e', 'c', 't', 'o', 'r']),
  (.char 0x295b, ['R', 'i', 'g', 'h', 't', 'T', 'e', 'e', 'V', 'e', 'c', 't', 'o', 'r']),
  (.char 0x295c, ['R', 'i', 'g', 'h', 't', 'U', 'p', 'T', 'e', 'e', 'V', 'e', 'c', 't', 'o', 'r']),
  (.char 0x295d, ['R', 'i', 'g', 'h', 't', 'D', 'o', 'w', 'n', 'T', 'e', 'e', 'V', 'e', 'c', 't', 'o', 'r']),
  (.char 0x295e, ['D', 'o', 'w', 'n', 'L', 'e', 'f', 't', 'T', 'e', 'e', 'V', 'e', 'c', 't', 'o', 'r']),
  (.char 0x295f, ['D', 'o', 'w', 'n', 'R', 'i', 'g', 'h', 't', 'T', 'e', 'e', 'V', 'e', 'c', 't', 'o', 'r']),
  (.char 0x2960, ['L', 'e', 'f', 't', 'U', 'p', 'T', 'e', 'e', 'V', 'e', 'c', 't', 'o', 'r']),
  (.char 0x2961, ['L', 'e', 'f', 't', 'D', 'o', 'w', 'n', 'T', 'e', 'e', 'V', 'e', 'c', 't', 'o', 'r']),
  (.char 0x296e, ['U', 'p', 'E', 'q', 'u', 'i', 'l', 'i', 'b', 'r', 'i', 'u', 'm']),
  (.char 0x296f, ['R', 'e', 'v', 'e', 'r', 's', 'e', 'U', 'p', 'E', 'q', 'u', 'i', 'l', 'i', 'b', 'r', 'i', 'u', 'm']),
  (.char 0x2970, ['R', 'o', 'u', 'n', 'd', 'I', 'm', 'p', 'l', 'i', 'e', 's']),
  (.char 0x29cf, ['L', 'e', 'f', 't', 'T', 'r', 'i', 'a', 'n', 'g', 'l', 'e', 'B', 'a', 'r']),
  (.char 0x29d0, ['R', 'i', 'g', 'h', 't', 'T', 'r', 'i', 'a', 'n', 'g', 'l', 'e', 'B', 'a', 'r']),
  (.char 0x29e6, ['E', 'q', 'u', 'i', 'v', 'a', 'l', 'e', 'n', 't']),
  (.char 0x2a7d, ['L', 'e', 's', 's', 'S', 'l', 'a', 'n', 't', 'E', 'q', 'u', 'a', 'l']),
  (.char 0x2a7e, ['G', 'r', 'e', 'a', 't', 'e', 'r', 'S', 'l', 'a', 'n', 't', 'E', 'q', 'u', 'a', 'l']),
  (.char 0x2aa1, ['N', 'e', 's', 't', 'e', 'd', 'L', 'e', 's', 's', 'L', 'e', 's', 's']),
  (.char 0x2aa2, ['N', 'e', 's', 't', 'e', 'd', 'G', 'r', 'e', 'a', 't', 'e', 'r', 'G', 'r', 'e', 'a', 't', 'e', 'r']),
  (.char 0x2aaf, ['P', 'r', 'e', 'c', 'e', 'd', 'e', 's', 'E', 'q', 'u', 'a', 'l']),
  (.char 0x2ab0, ['S', 'u', 'c', 'c', 'e', 'e', 'd', 's', 'E', 'q', 'u', 'a', 'l']),
  (.char 0x2ae4, ['D', 'o', 'u', 'b', 'l', 'e', 'L', 'e', 'f', 't', 'T', 'e', 'e']),
  (.char 0x3000, ['C', 'O', 'M', 'P', 'A', 'T', 'I', 'B', 'I', 'L', 'I', 'T', 'Y', 'K', 'a', 'n', 'j', 'i', 'S', 'p', 'a', 'c', 'e']),
  (.char 0x301a, ['L', 'e', 'f', 't', 'D', 'o', 'u', 'b', 'l', 'e', 'B', 'r', 'a', 'c', 'k', 'e', 't']),
  (.char 0x301b, ['R', 'i', 'g', 'h', 't', 'D', 'o', 'u', 'b', 'l', 'e', 'B', 'r', 'a', 'c', 'k', 'e', 't']),
  (.char 0xf113, ['L', 'e', 'f', 't', 'A', 's', 's', 'o', 'c', 'i', 'a', 't', 'i', 'o', 'n']),
  (.char 0xf114, ['R', 'i', 'g', 'h', 't', 'A', 's', 's', 'o', 'c', 'i', 'a', 't', 'i', 'o', 'n']),
  (.char 0xf11d, ['S', 'h', 'a', 'h']),
  (.char 0xf11e, ['W', 'o', 'l', 'f', 'r', 'a', 'm', 'L', 'a', 'n', 'g', 'u', 'a', 'g', 'e', 'L', 'o', 'g', 'o']),
  (.char 0xf11f, ['W', 'o', 'l', 'f', 'r', 'a', 'm', 'L', 'a', 'n', 'g', 'u', 'a', 'g', 'e', 'L', 'o', 'g', 'o', 'C', 'i', 'r', 'c', 'l', 'e']),
  (.char 0xf120, ['T', 'w', 'o', 'W', 'a', 'y', 'R', 'u', 'l', 'e']),
  (.char 0xf351, ['F', 'r', 'e', 'e', 'f', 'o', 'r', 'm', 'P', 'r', 'o', 'm', 'p', 't']),
  (.char 0xf352, ['W', 'o', 'l', 'f', 'r', 'a', 'm', 'A', 'l', 'p', 'h', 'a', 'P', 'r', 'o', 'm', 'p', 't']),
  (.char 0xf360, ['I', 'n', 'v', 'i', 's', 'i', 'b', 'l', 'e', 'S', 'p', 'a', 'c', 'e']),
  (.char 0xf361, ['P', 'i', 'e', 'c', 'e', 'w', 'i', 's', 'e']),
  (.char 0xf380, ['N', 'e', 'g', 'a', 't', 'i', 'v', 'e', 'V', 'e', 'r', 'y', 'T', 'h', 'i', 'n', 'S', 'p', 'a', 'c', 'e']),
  (.char 0xf382, ['N', 'e', 'g', 'a', 't', 'i', 'v', 'e', 'T', 'h', 'i', 'n', 'S', 'p', 'a', 'c', 'e']),
  (.char 0xf383, ['N', 'e', 'g', 'a', 't', 'i', 'v', 'e', 'M', 'e', 'd', 'i', 'u', 'm', 'S', 'p', 'a', 'c', 'e']),
  (.char 0xf384, ['N', 'e', 'g', 'a', 't', 'i', 'v', 'e', 'T', 'h', 'i', 'c', 'k', 'S', 'p', 'a', 'c', 'e']),
  (.char 0xf39e, ['I', 'm', 'p', 'l', 'i', 'c', 'i', 't', 'P', 'l', 'u', 's']),
  (.char 0xf3a0, ['N', 'u', 'l', 'l']),
  (.char 0xf3a2, ['C', 'O', 'M', 'P', 'A', 'T', 'I', 'B', 'I', 'L', 'I', 'T', 'Y', 'N', 'o', 'B', 'r', 'e', 'a', 'k']),
  (.char 0xf3a3, ['I', 'n', 'd', 'e', 'n', 't', 'i', 'n', 'g', 'N', 'e', 'w', 'L', 'i', 'n', 'e']),
  (.char 0xf3a4, ['A', 'u', 't', 'o', 'P', 'l', 'a', 'c', 'e', 'h', 'o', 'l', 'd', 'e', 'r']),
  (.char 0xf3a8, ['A', 'u', 't', 'o', 'L', 'e', 'f', 't', 'M', 'a', 't', 'c', 'h']),
  (.char 0xf3a9, ['A', 'u', 't', 'o', 'R', 'i', 'g', 'h', 't', 'M', 'a', 't', 'c', 'h']),
  (.char 0xf3ad, ['A', 'u', 't', 'o', 'S', 'p', 'a', 'c', 'e']),
  (.char 0xf3ae, ['A', 'u', 't', 'o', 'O', 'p', 'e', 'r', 'a', 'n', 'd']),
  (.char 0xf3af, ['S', 'y', 's', 't', 'e', 'm', 's', 'M', 'o', 'd', 'e', 'l', 'D', 'e', 'l', 'a', 'y']),
  (.char 0xf3b1, ['C', 'o', 'n', 't', 'i', 'n', 'u', 'a', 't', 'i', 'o', 'n']),
  (.char 0xf3b2, ['R', 'o', 'u', 'n', 'd', 'S', 'p', 'a', 'c', 'e', 'I', 'n', 'd', 'i', 'c', 'a', 't', 'o', 'r']),
  (.char 0xf3b3, ['I', 'n', 'v', 'i', 's', 'i', 'b', 'l', 'e', 'P', 'r', 'e', 'f', 'i', 'x', 'S', 'c', 'r', 'i', 'p', 't', 'B', 'a', 's', 'e']),
  (.char 0xf3b4, ['I', 'n', 'v', 'i', 's', 'i', 'b', 'l', 'e', 'P', 'o', 's', 't', 'f', 'i', 'x', 'S', 'c', 'r', 'i', 'p', 't', 'B', 'a', 's', 'e']),
  (.char 0xf3b8, ['E', 'n', 't', 'i', 't', 'y', 'S', 't', 'a', 'r', 't']),
  (.char 0xf3b9, ['E', 'n', 't', 'i', 't', 'y', 'E', 'n', 'd']),
  (.char 0xf3ba, ['S', 'p', 'a', 'n', 'F', 'r', 'o', 'm', 'L', 'e', 'f', 't']),
  (.char 0xf3bb, ['S', 'p', 'a', 'n', 'F', 'r', 'o', 'm', 'A', 'b', 'o', 'v', 'e']),
  (.char 0xf3bc, ['S', 'p', 'a', 'n', 'F', 'r', 'o', 'm', 'B', 'o', 't', 'h']),
  (.char 0xf3bd, ['P', 'a', 'g', 'e', 'B', 'r', 'e', 'a', 'k', 'A', 'b', 'o', 'v', 'e']),
  (.char 0xf3be, ['P', 'a', 'g', 'e', 'B', 'r', 'e', 'a', 'k', 'B', 'e', 'l', 'o', 'w']),
  (.char 0xf3bf, ['D', 'i', 's', 'c', 'r', 'e', 't', 'i', 'o', 'n', 'a', 'r', 'y', 'P', 'a', 'g', 'e', 'B', 'r', 'e', 'a', 'k', 'A', 'b', 'o', 'v', 'e']),
  (.char 0xf3c6, ['D', 'i', 's', 'c', 'r', 'e', 't', 'i', 'o', 'n', 'a', 'r', 'y', 'P', 'a', 'g', 'e', 'B', 'r', 'e', 'a', 'k', 'B', 'e', 'l', 'o', 'w']),
  (.char 0xf3c7, ['T', 'r', 'a', 'n', 's', 'p', 'o', 's', 'e']),
  (.char 0xf3c8, ['C', 'o', 'n', 'j', 'u', 'g', 'a', 't', 'e']),
  (.char 0xf3c9, ['C', 'o', 'n', 'j', 'u', 'g', 'a', 't', 'e', 'T', 'r', 'a', 'n', 's', 'p', 'o', 's', 'e']),
  (.char 0xf3ca, ['S', 't', 'e', 'p', 'p', 'e', 'r', 'R', 'i', 'g', 'h', 't']),
  (.char 0xf3cb, ['S', 't', 'e', 'p', 'p', 'e', 'r', 'L', 'e', 'f', 't']),
  (.char 0xf3cc, ['S', 't', 'e', 'p', 'p', 'e', 'r', 'U', 'p']),
  (.char 0xf3cd, ['S', 't', 'e', 'p', 'p', 'e', 'r', 'D', 'o', 'w', 'n']),
  (.char 0xf3ce, ['H', 'e', 'r', 'm', 'i', 't', 'i', 'a', 'n', 'C', 'o', 'n', 'j', 'u', 'g', 'a', 't', 'e']),
  (.char 0xf3d0, ['V', 'e', 'r', 't', 'i', 'c', 'a', 'l', 'B', 'a', 'r']),
  (.char 0xf3d1, ['N', 'o', 't', 'V', 'e', 'r', 't', 'i', 'c', 'a', 'l', 'B', 'a', 'r']),
  (.char 0xf3d2, ['D', 'i', 's', 't', 'r', 'i', 'b', 'u', 't', 'e', 'd']),
  (.char 0xf3d3, ['C', 'o', 'n', 'd', 'i', 't', 'i', 'o', 'n', 'e', 'd']),
  (.char 0xf3d4, ['U', 'n', 'd', 'i', 'r', 'e', 'c', 't', 'e', 'd', 'E', 'd', 'g', 'e']),
  (.char 0xf3d5, ['D', 'i', 'r', 'e', 'c', 't', 'e', 'd', 'E', 'd', 'g', 'e']),
  (.char 0xf3d9, ['C', 'o', 'n', 't', 'i', 'n', 'u', 'e', 'd', 'F', 'r', 'a', 'c', 't', 'i', 'o', 'n', 'K']),
  (.char 0xf3da, ['T', 'e', 'n', 's', 'o', 'r', 'P', 'r', 'o', 'd', 'u', 'c', 't']),
  (.char 0xf3db, ['T', 'e', 'n', 's', 'o', 'r', 'W', 'e', 'd', 'g', 'e']),
  (.char 0xf3dc, ['P', 'r', 'o', 'b', 'a', 'b', 'i', 'l', 'i', 't', 'y', 'P', 'r']),
  (.char 0xf3dd, ['E', 'x', 'p', 'e', 'c', 't', 'a', 't', 'i', 'o', 'n', 'E']),
  (.char 0xf3de, ['P', 'e', 'r', 'm', 'u', 't', 'a', 't', 'i', 'o', 'n', 'P', 'r', 'o', 'd', 'u', 'c', 't']),
  (.char 0xf3df, ['E', 'a', 'r', 't', 'h']),
  (.char 0xf400, ['N', 'o', 't', 'E', 'q', 'u', 'a', 'l', 'T', 'i', 'l', 'd', 'e']),
  (.char 0xf401, ['N', 'o', 't', 'H', 'u', 'm', 'p', 'E', 'q', 'u', 'a', 'l']),
  (.char 0xf402, ['N', 'o', 't', 'H', 'u', 'm', 'p', 'D', 'o', 'w', 'n', 'H', 'u', 'm', 'p']),
  (.char 0xf412, ['N', 'o', 't', 'L', 'e', 'f', 't', 'T', 'r', 'i', 'a', 'n', 'g', 'l', 'e', 'B', 'a', 'r']),
  (.char 0xf413, ['N', 'o', 't', 'R', 'i', 'g', 'h', 't', 'T', 'r', 'i', 'a', 'n', 'g', 'l', 'e', 'B', 'a', 'r']),
  (.char 0xf422, ['N', 'o', 't', 'L', 'e', 's', 's', 'L', 'e', 's', 's']),
  (.char 0xf423, ['N', 'o', 't', 'N', 'e', 's', 't', 'e', 'd', 'L', 'e', 's', 's', 'L', 'e', 's', 's']),
  (.char 0xf424, ['N', 'o', 't', 'L', 'e', 's', 's', 'S', 'l', 'a', 'n', 't', 'E', 'q', 'u', 'a', 'l']),
  (.char 0xf427, ['N', 'o', 't', 'G', 'r', 'e', 'a', 't', 'e', 'r', 'G', 'r', 'e', 'a', 't', 'e', 'r']),
  (.char 0xf428, ['N', 'o', 't', 'N', 'e', 's', 't', 'e', 'd', 'G', 'r', 'e', 'a', 't', 'e', 'r', 'G', 'r', 'e', 'a', 't', 'e', 'r']),
  (.char 0xf429, ['N', 'o', 't', 'G', 'r', 'e', 'a', 't', 'e', 'r', 'S', 'l', 'a', 'n', 't', 'E', 'q', 'u', 'a', 'l']),
  (.char 0xf42b, ['N', 'o', 't', 'P', 'r', 'e', 'c', 'e', 'd', 'e', 's', 'E', 'q', 'u', 'a', 'l']),
  (.char 0xf42d, ['N', 'o', 't', 'S', 'u', 'c', 'c', 'e', 'e', 'd', 's', 'E', 'q', 'u', 'a', 'l']),
  (.char 0xf42e, ['N', 'o', 't', 'S', 'q', 'u', 'a', 'r', 'e', 'S', 'u', 'b', 's', 'e', 't']),
  (.char 0xf42f, ['N', 'o', 't', 'S', 'q', 'u', 'a', 'r', 'e', 'S', 'u', 'p', 'e', 'r', 's', 'e', 't']),
  (.char 0xf431, ['E', 'q', 'u', 'a', 'l']),
  (.char 0xf432, ['V', 'e', 'r', 't', 'i', 'c', 'a', 'l', 'S', 'e', 'p', 'a', 'r', 'a', 't', 'o', 'r']),
  (.char 0xf434, ['V', 'e', 'c', 't', 'o', 'r', 'G', 'r', 'e', 'a', 't', 'e', 'r']),
  (.char 0xf435, ['V', 'e', 'c', 't', 'o', 'r', 'G', 'r', 'e', 'a', 't', 'e', 'r', 'E', 'q', 'u', 'a', 'l']),
  (.char 0xf436, ['V', 'e', 'c', 't', 'o', 'r', 'L', 'e', 's', 's']),
  (.char 0xf437, ['V', 'e', 'c', 't', 'o', 'r', 'L', 'e', 's', 's', 'E', 'q', 'u', 'a', 'l']),
  (.char 0xf438, ['L', 'i', 'm', 'i', 't']),
  (.char 0xf439, ['M', 'a', 'x', 'L', 'i', 'm', 'i', 't']),
  (.char 0xf43a, ['M', 'i', 'n', 'L', 'i', 'm', 'i', 't']),
  (.char 0xf4a0, ['C', 'r', 'o', 's', 's']),
  (.char 0xf4a1, ['F', 'u', 'n', 'c', 't', 'i', 'o', 'n']),
  (.char 0xf4a2, ['X', 'n', 'o', 'r']),
  (.char 0xf4a3, ['D', 'i', 's', 'c', 'r', 'e', 't', 'e', 'S', 'h', 'i', 'f', 't']),
  (.char 0xf4a4, ['D', 'i', 'f', 'f', 'e', 'r', 'e', 'n', 'c', 'e', 'D', 'e', 'l', 't', 'a']),
  (.char 0xf4a5, ['D', 'i', 's', 'c', 'r', 'e', 't', 'e', 'R', 'a', 't', 'i', 'o']),
  (.char 0xf51e, ['I', 'n', 'l', 'i', 'n', 'e', 'P', 'a', 'r', 't']),
  (.char 0xf51f, ['R', 'u', 'l', 'e', 'D', 'e', 'l', 'a', 'y', 'e', 'd']),
  (.char 0xf520, ['S', 'q', 'u', 'a', 'r', 'e']),
  (.char 0xf522, ['R', 'u', 'l', 'e']),
  (.char 0xf523, ['I', 'm', 'p', 'l', 'i', 'e', 's']),
  (.char 0xf525, ['S', 'h', 'o', 'r', 't', 'R', 'i', 'g', 'h', 't', 'A', 'r', 'r', 'o', 'w']),
  (.char 0xf526, ['S', 'h', 'o', 'r', 't', 'L', 'e', 'f', 't', 'A', 'r', 'r', 'o', 'w']),
  (.char 0xf527, ['S', 'e', 'l', 'e', 'c', 't', 'i', 'o', 'n', 'P', 'l', 'a', 'c', 'e', 'h', 'o', 'l', 'd', 'e', 'r']),
  (.char 0xf528, ['P', 'l', 'a', 'c', 'e', 'h', 'o', 'l', 'd', 'e', 'r']),
  (.char 0xf52a, ['S', 'h', 'o', 'r', 't', 'U', 'p', 'A', 'r', 'r', 'o', 'w']),
  (.char 0xf52b, ['S', 'h', 'o', 'r', 't', 'D', 'o', 'w', 'n', 'A', 'r', 'r', 'o', 'w']),
  (.char 0xf530, ['A', 'p', 'p', 'l', 'i', 'c', 'a', 't', 'i', 'o', 'n']),
  (.char 0xf603, ['L', 'e', 'f', 't', 'B', 'r', 'a', 'c', 'k', 'e', 't', 'i', 'n', 'g', 'B', 'a', 'r']),
  (.char 0xf604, ['R', 'i', 'g', 'h', 't', 'B', 'r', 'a', 'c', 'k', 'e', 't', 'i', 'n', 'g', 'B', 'a', 'r']),
  (.char 0xf605, ['L', 'e', 'f', 't', 'D', 'o', 'u', 'b', 'l', 'e', 'B', 'r', 'a', 'c', 'k', 'e', 't', 'i', 'n', 'g', 'B', 'a', 'r']),
  (.char 0xf606, ['R', 'i', 'g', 'h', 't', 'D', 'o', 'u', 'b', 'l', 'e', 'B', 'r', 'a', 'c', 'k', 'e', 't', 'i', 'n', 'g', 'B', 'a', 'r']),
  (.char 0xf6b2, ['S', 'c', 'r', 'i', 'p', 't', 'A']),
  (.char 0xf6b3, ['S', 'c', 'r', 'i', 'p', 't', 'B']),
  (.char 0xf6b4, ['S', 'c', 'r', 'i', 'p', 't', 'C']),
  (.char 0xf6b5, ['S', 'c', 'r', 'i', 'p', 't', 'D']),
  (.char 0xf6b7, ['S', 'c', 'r', 'i', 'p', 't', 'F']),
  (.char 0xf6b9, ['S', 'c', 'r', 'i', 'p', 't', 'H']),
  (.char 0xf6ba, ['S', 'c', 'r', 'i', 'p', 't', 'I']),
  (.char 0xf6bb, ['S', 'c', 'r', 'i', 'p', 't', 'J']),
  (.char 0xf6bc, ['S', 'c', 'r', 'i', 'p', 't', 'K']),
  (.char 0xf6be, ['S', 'c', 'r', 'i', 'p', 't', 'M']),
  (.char 0xf6bf, ['S', 'c', 'r', 'i', 'p', 't', 'N']),
  (.char 0xf6c1, ['S', 'c', 'r', 'i', 'p', 't', 'P']),
  (.char 0xf6c2, ['S', 'c', 'r', 'i', 'p', 't', 'Q']),
  (.char 0xf6c3, ['S', 'c', 'r', 'i', 'p', 't', 'R']),
  (.char 0xf6c4, ['S', 'c', 'r', 'i', 'p', 't', 'S']),
  (.char 0xf6c5, ['S', 'c', 'r', 'i', 'p', 't', 'T']),
  (.char 0xf6c6, ['S', 'c', 'r', 'i', 'p', 't', 'U']),
  (.char 0xf6c7, ['S', 'c', 'r', 'i', 'p', 't', 'V']),
  (.char 0xf6c8, ['S', 'c', 'r', 'i', 'p', 't', 'W']),
  (.char 0xf6c9, ['S', 'c', 'r', 'i', 'p', 't', 'X']),
  (.char 0xf6ca, ['S', 'c', 'r', 'i', 'p', 't', 'Y']),
  (.char 0xf6cb, ['S', 'c', 'r', 'i', 'p', 't', 'Z']),
  (.char 0xf6cc, ['G', 'o', 't', 'h', 'i', 'c', 'A']),
  (.char 0xf6cd, ['G', 'o', 't', 'h', 'i', 'c', 'B']),
  (.char 0xf6ce, ['G', 'o', 't', 'h', 'i', 'c', 'C']),
  (.char 0xf6cf, ['G', 'o', 't', 'h', 'i', 'c', 'D']),
  (.char 0xf6d0, ['G', 'o', 't', 'h', 'i', 'c', 'E']),
  (.char 0xf6d1, ['G', 'o', 't', 'h', 'i', 'c', 'F']),
  (.char 0xf6d2, ['G', 'o', 't', 'h', 'i', 'c', 'G']),
  (.char 0xf6d3, ['G', 'o', 't', 'h', 'i', 'c', 'H']),
  (.char 0xf6d4, ['G', 'o', 't', 'h', 'i', 'c', 'I']),
  (.char 0xf6d5, ['G', 'o', 't', 'h', 'i', 'c', 'J']),
  (.char 0xf6d6, ['G', 'o', 't', 'h', 'i', 'c', 'K']),
  (.char 0xf6d7, ['G', 'o', 't', 'h', 'i', 'c', 'L']),
  (.char 0xf6d8, ['G', 'o', 't', 'h', 'i', 'c', 'M']),
  (.char 0xf6d9, ['G', 'o', 't', 'h', 'i', 'c', 'N']),
  (.char 0xf6da, ['G', 'o', 't', 'h', 'i', 'c', 'O']),
  (.char 0xf6db, ['G', 'o', 't', 'h', 'i', 'c', 'P']),
  (.char 0xf6dc, ['G', 'o', 't', 'h', 'i', 'c', 'Q']),
  (.char 0xf6dd, ['G', 'o', 't', 'h', 'i', 'c', 'R']),
  (.char 0xf6de, ['G', 'o', 't', 'h', 'i', 'c', 'S']),
  (.char 0xf6df, ['G', 'o', 't', 'h', 'i', 'c', 'T']),
  (.char 0xf6e0, ['G', 'o', 't', 'h', 'i', 'c', 'U']),
  (.char 0xf6e1, ['G', 'o', 't', 'h', 'i', 'c', 'V']),
  (.char 0xf6e2, ['G', 'o', 't', 'h', 'i', 'c', 'W']),
  (.char 0xf6e3, ['G', 'o', 't', 'h', 'i', 'c', 'X']),
  (.char 0xf6e4, ['G', 'o', 't', 'h', 'i', 'c', 'Y']),
  (.char 0xf6e5, ['G', 'o', 't', 'h', 'i', 'c', 'Z']),
  (.char 0xf6e6, ['D', 'o', 'u', 'b', 'l', 'e', 'S', 't', 'r', 'u', 'c', 'k', 'A']),
  (.char 0xf6e7, ['D', 'o', 'u', 'b', 'l', 'e', 'S', 't', 'r', 'u', 'c', 'k', 'B']),
  (.char 0xf6e8, ['D', 'o', 'u', 'b', 'l', 'e', 'S', 't', 'r', 'u', 'c', 'k', 'C']),
  (.char 0xf6e9, ['D', 'o', 'u', 'b', 'l', 'e', 'S', 't', 'r', 'u', 'c', 'k', 'D']),
  (.char 0xf6ea, ['D', 'o', 'u', 'b', 'l', 'e', 'S', 't', 'r', 'u', 'c', 'k', 'E']),
  (.char 0xf6eb, ['D', 'o', 'u', 'b', 'l', 'e', 'S', 't', 'r', 'u', 'c', 'k', 'F']),
  (.char 0xf6ec, ['D', 'o', 'u', 'b', 'l', 'e', 'S', 't', 'r', 'u', 'c', 'k', 'G']),
  (.char 0xf6ed, ['D', 'o', 'u', 'b', 'l', 'e', 'S', 't', 'r', 'u', 'c', 'k', 'H']),
  (.char 0xf6ee, ['D', 'o', 'u', 'b', 'l', 'e', 'S', 't', 'r', 'u', 'c', 'k', 'I']),
  (.char 0xf6ef, ['D', 'o', 'u', 'b', 'l', 'e', 'S', 't', 'r', 'u', 'c', 'k', 'J']),
  (.char 0xf6f0, ['D', 'o', 'u', 'b', 'l', 'e', 'S', 't', 'r', 'u', 'c', 'k', 'K']),
  (.char 0xf6f1, ['D', 'o', 'u', 'b', 'l', 'e', 'S', 't', 'r', 'u', 'c', 'k', 'L']),
  (.char 0xf6f2, ['D', 'o', 'u', 'b', 'l', 'e', 'S', 't', 'r', 'u', 'c', 'k', 'M']),
  (.char 0xf6f3, ['D', 'o', 'u', 'b', 'l', 'e', 'S', 't', 'r', 'u', 'c', 'k', 'N']),
  (.char 0xf6f4, ['D', 'o', 'u', 'b', 'l', 'e', 'S', 't', 'r', 'u', 'c', 'k', 'O']),
  (.char 0xf6f5, ['D', 'o', 'u', 'b', 'l', 'e', 'S', 't', 'r', 'u', 'c', 'k', 'P']),
  (.char 0xf6f6, ['D', 'o', 'u', 'b', 'l', 'e', 'S', 't', 'r', 'u', 'c', 'k', 'Q']),
  (.char 0xf6f7, ['D', 'o', 'u', 'b', 'l', 'e', 'S', 't', 'r', 'u', 'c', 'k', 'R']),
  (.char 0xf6f8, ['D', 'o', 'u', 'b', 'l', 'e', 'S', 't', 'r', 'u', 'c', 'k', 'S']),
  (.char 0xf6f9, ['D', 'o', 'u', 'b', 'l', 'e', 'S', 't', 'r', 'u', 'c', 'k', 'T']),
  (.char 0xf6fa, ['D', 'o', 'u', 'b', 'l', 'e', 'S', 't', 'r', 'u', 'c', 'k', 'U']),
  (.char 0xf6fb, ['D', 'o', 'u', 'b', 'l', 'e', 'S', 't', 'r', 'u', 'c', 'k', 'V']),
  (.char 0xf6fc, ['D', 'o', 'u', 'b', 'l', 'e', 'S', 't', 'r', 'u', 'c', 'k', 'W']),
  (.char 0xf6fd, ['D', 'o', 'u', 'b', 'l', 'e', 'S', 't', 'r', 'u', 'c', 'k', 'X']),
  (.char 0xf6fe, ['D', 'o', 'u', 'b', 'l', 'e', 'S', 't', 'r', 'u', 'c', 'k', 'Y']),
  (.char 0xf6ff, ['D', 'o', 'u', 'b', 'l', 'e', 'S', 't', 'r', 'u', 'c', 'k', 'Z']),
  (.char 0xf700, ['D', 'o', 't', 'l', 'e', 's', 's', 'J']),
  (.char 0xf720, ['W', 'o', 'l', 'f']),
  (.char 0xf721, ['F', 'r', 'e', 'a', 'k', 'e', 'd', 'S', 'm', 'i', 'l', 'e', 'y']),
  (.char 0xf722, ['N', 'e', 'u', 't', 'r', 'a', 'l', 'S', 'm', 'i', 'l', 'e', 'y']),
  (.char 0xf723, ['L', 'i', 'g', 'h', 't', 'B', 'u', 'l', 'b']),
  (.char 0xf724, ['N', 'u', 'm', 'b', 'e', 'r', 'S', 'i', 'g', 'n']),
  (.char 0xf725, ['W', 'a', 'r', 'n', 'i', 'n', 'g', 'S', 'i', 'g', 'n']),
  (.char 0xf727, ['V', 'i', 'l', 'l', 'a']),
  (.char 0xf728, ['A', 'k', 'u', 'z']),
  (.char 0xf729, ['A', 'n', 'd', 'y']),
  (.char 0xf72a, ['S', 'p', 'o', 'o', 'k', 'y']),
  (.char 0xf730, ['S', 'c', 'r', 'i', 'p', 't', 'D', 'o', 't', 'l', 'e', 's', 's', 'I']),
  (.char 0xf731, ['S', 'c', 'r', 'i', 'p', 't', 'D', 'o', 't', 'l', 'e', 's', 's', 'J']),
  (.char 0xf749, ['D', 'o', 'u', 'b', 'l', 'e', 'd', 'P', 'i']),
  (.char 0xf74a, ['D', 'o', 'u', 'b', 'l', 'e', 'd', 'G', 'a', 'm', 'm', 'a']),
  (.char 0xf74b, ['C', 'a', 'p', 'i', 't', 'a', 'l', 'D', 'i', 'f', 'f', 'e', 'r', 'e', 'n', 't', 'i', 'a', 'l', 'D']),
  (.char 0xf74c, ['D', 'i', 'f', 'f', 'e', 'r', 'e', 'n', 't', 'i', 'a', 'l', 'D']),
  (.char 0xf74d, ['E', 'x', 'p', 'o', 'n', 'e', 'n', 't', 'i', 'a', 'l', 'E']),
  (.char 0xf74e, ['I', 'm', 'a', 'g', 'i', 'n', 'a', 'r', 'y', 'I']),
  (.char 0xf74f, ['I', 'm', 'a', 'g', 'i', 'n', 'a', 'r', 'y', 'J']),
  (.char 0xf750, ['F', 'i', 'l', 'l', 'e', 'd', 'S', 'm', 'a', 'l', 'l', 'C', 'i', 'r', 'c', 'l', 'e']),
  (.char 0xf751, ['D', 'o', 't', 't', 'e', 'd', 'S', 'q', 'u', 'a', 'r', 'e']),
  (.char 0xf752, ['G', 'r', 'a', 'y', 'S', 'q', 'u', 'a', 'r', 'e']),
  (.char 0xf753, ['G', 'r', 'a', 'y', 'C', 'i', 'r', 'c', 'l', 'e']),
  (.char 0xf754, ['L', 'e', 't', 't', 'e', 'r', 'S', 'p', 'a', 'c', 'e']),
  (.char 0xf755, ['D', 'o', 'w', 'n', 'B', 'r', 'e', 'v', 'e']),
  (.char 0xf756, ['K', 'e', 'r', 'n', 'e', 'l', 'I', 'c', 'o', 'n']),
  (.char 0xf757, ['M', 'a', 't', 'h', 'e', 'm', 'a', 't', 'i', 'c', 'a', 'I', 'c', 'o', 'n']),
  (.char 0xf758, ['T', 'r', 'i', 'p', 'l', 'e', 'D', 'o', 't']),
  (.char 0xf75f, ['S', 'y', 's', 't', 'e', 'm', 'E', 'n', 't', 'e', 'r', 'K', 'e', 'y']),
  (.char 0xf760, ['A', 'l', 'i', 'g', 'n', 'm', 'e', 'n', 't', 'M', 'a', 'r', 'k', 'e', 'r']),
  (.char 0xf761, ['L', 'e', 'f', 't', 'S', 'k', 'e', 'l', 'e', 't', 'o', 'n']),
  (.char 0xf762, ['R', 'i', 'g', 'h', 't', 'S', 'k', 'e', 'l', 'e', 't', 'o', 'n']),
  (.char 0xf763, ['C', 'o', 'n', 't', 'r', 'o', 'l', 'K', 'e', 'y']),
  (.char 0xf764, ['A', 'l', 'i', 'a', 's', 'D', 'e', 'l', 'i', 'm', 'i', 't', 'e', 'r']),
  (.char 0xf765, ['I', 'n', 'v', 'i', 's', 'i', 'b', 'l', 'e', 'C', 'o', 'm', 'm', 'a']),
  (.char 0xf766, ['R', 'e', 't', 'u', 'r', 'n', 'K', 'e', 'y']),
  (.char 0xf767, ['E', 'r', 'r', 'o', 'r', 'I', 'n', 'd', 'i', 'c', 'a', 't', 'o', 'r']),
  (.char 0xf768, ['A', 'l', 'i', 'a', 's', 'I', 'n', 'd', 'i', 'c', 'a', 't', 'o', 'r']),
  (.char 0xf769, ['E', 's', 'c', 'a', 'p', 'e', 'K', 'e', 'y']),
  (.char 0xf76a, ['C', 'o', 'm', 'm', 'a', 'n', 'd', 'K', 'e', 'y']),
  (.char 0xf76b, ['L', 'e', 'f', 't', 'M', 'o', 'd', 'i', 'f', 'i', 'e', 'd']),
  (.char 0xf76c, ['R', 'i', 'g', 'h', 't', 'M', 'o', 'd', 'i', 'f', 'i', 'e', 'd']),
  (.char 0xf76d, ['I', 'n', 'v', 'i', 's', 'i', 'b', 'l', 'e', 'A', 'p', 'p', 'l', 'i', 'c', 'a', 't', 'i', 'o', 'n']),
  (.char 0xf76e, ['D', 'i', 's', 'c', 'r', 'e', 't', 'i', 'o', 'n', 'a', 'r', 'y', 'L', 'i', 'n', 'e', 'S', 'e', 'p', 'a', 'r', 'a', 't', 'o', 'r']),
  (.char 0xf76f, ['D', 'i', 's', 'c', 'r', 'e', 't', 'i', 'o', 'n', 'a', 'r', 'y', 'P', 'a', 'r', 'a', 'g', 'r', 'a', 'p', 'h', 'S', 'e', 'p', 'a', 'r', 'a', 't', 'o', 'r']),
  (.char 0xf770, ['S', 'c', 'r', 'i', 'p', 't', 'C', 'a', 'p', 'i', 't', 'a', 'l', 'A']),
  (.char 0xf772, ['S', 'c', 'r', 'i', 'p', 't', 'C', 'a', 'p', 'i', 't', 'a', 'l', 'C']),
  (.char 0xf773, ['S', 'c', 'r', 'i', 'p', 't', 'C', 'a', 'p', 'i', 't', 'a', 'l', 'D']),
  (.char 0xf776, ['S', 'c', 'r', 'i', 'p', 't', 'C', 'a', 'p', 'i', 't', 'a', 'l', 'G']),
  (.char 0xf779, ['S', 'c', 'r', 'i', 'p', 't', 'C', 'a', 'p', 'i', 't', 'a', 'l', 'J']),
  (.char 0xf77a, ['S', 'c', 'r', 'i', 'p', 't', 'C', 'a', 'p', 'i', 't', 'a', 'l', 'K']),
  (.char 0xf77d, ['S', 'c', 'r', 'i', 'p', 't', 'C', 'a', 'p', 'i', 't', 'a', 'l', 'N']),
  (.char 0xf77e, ['S', 'c', 'r', 'i', 'p', 't', 'C', 'a', 'p', 'i', 't', 'a', 'l', 'O']),
  (.char 0xf77f, ['S', 'c', 'r', 'i', 'p', 't', 'C', 'a', 'p', 'i', 't', 'a', 'l', 'P']),
  (.char 0xf780, ['S', 'c', 'r', 'i', 'p', 't', 'C', 'a', 'p', 'i', 't', 'a', 'l', 'Q']),
  (.char 0xf782, ['S', 'c', 'r', 'i', 'p', 't', 'C', 'a', 'p', 'i', 't', 'a', 'l', 'S']),
  (.char 0xf783, ['S', 'c', 'r', 'i', 'p', 't', 'C', 'a', 'p', 'i', 't', 'a', 'l', 'T']),
  (.char 0xf784, ['S', 'c', 'r', 'i', 'p', 't', 'C', 'a', 'p', 'i', 't', 'a', 'l', 'U']),
  (.char 0xf785, ['S', 'c', 'r', 'i', 'p', 't', 'C', 'a', 'p', 'i', 't', 'a', 'l', 'V']),
  (.char 0xf786, ['S', 'c', 'r', 'i', 'p', 't', 'C', 'a', 'p', 'i', 't', 'a', 'l', 'W']),
  (.char 0xf787, ['S', 'c', 'r', 'i', 'p', 't', 'C', 'a', 'p', 'i', 't', 'a', 'l', 'X']),
  (.char 0xf788, ['S', 'c', 'r', 'i', 'p', 't', 'C', 'a', 'p', 'i', 't', 'a', 'l', 'Y']),
  (.char 0xf789, ['S', 'c', 'r', 'i', 'p', 't', 'C', 'a', 'p', 'i', 't', 'a', 'l', 'Z']),
  (.char 0xf78a, ['G', 'o', 't', 'h', 'i', 'c', 'C', 'a', 'p', 'i', 't', 'a', 'l', 'A']),
  (.char 0xf78b, ['G', 'o', 't', 'h', 'i', 'c', 'C', 'a', 'p', 'i', 't', 'a', 'l', 'B']),
  (.char 0xf78d, ['G', 'o', 't', 'h', 'i', 'c', 'C', 'a', 'p', 'i', 't', 'a', 'l', 'D']),
  (.char 0xf78e, ['G', 'o', 't', 'h', 'i', 'c', 'C', 'a', 'p', 'i', 't', 'a', 'l', 'E']),
  (.char 0xf78f, ['G', 'o', 't', 'h', 'i', 'c', 'C', 'a', 'p', 'i', 't', 'a', 'l', 'F']),
  (.char 0xf790, ['G', 'o', 't', 'h', 'i', 'c', 'C', 'a', 'p', 'i', 't', 'a', 'l', 'G']),
  (.char 0xf793, ['G', 'o', 't', 'h', 'i', 'c', 'C', 'a', 'p', 'i', 't', 'a', 'l', 'J']),
  (.char 0xf794, ['G', 'o', 't', 'h', 'i', 'c', 'C', 'a', 'p', 'i', 't', 'a', 'l', 'K']),
  (.char 0xf795, ['G', 'o', 't', 'h', 'i', 'c', 'C', 'a', 'p', 'i', 't', 'a', 'l', 'L']),
  (.char 0xf796, ['G', 'o', 't', 'h', 'i', 'c', 'C', 'a', 'p', 'i', 't', 'a', 'l', 'M']),
  (.char 0xf797, ['G', 'o', 't', 'h', 'i', 'c', 'C', 'a', 'p', 'i', 't', 'a', 'l', 'N']),
  (.char 0xf798, ['G', 'o', 't', 'h', 'i', 'c', 'C', 'a', 'p', 'i', 't', 'a', 'l', 'O']),
  (.char 0xf799, ['G', 'o', 't', 'h', 'i', 'c', 'C', 'a', 'p', 'i', 't', 'a', 'l', 'P']),
  (.char 0xf79a, ['G', 'o', 't', 'h', 'i', 'c', 'C', 'a', 'p', 'i', 't', 'a', 'l', 'Q']),
  (.char 0xf79c, ['G', 'o', 't', 'h', 'i', 'c', 'C', 'a', 'p', 'i', 't', 'a', 'l', 'S']),
  (.char 0xf79d, ['G', 'o', 't', 'h', 'i', 'c', 'C', 'a', 'p', 'i', 't', 'a', 'l', 'T']),
  (.char 0xf79e, ['G', 'o', 't', 'h', 'i', 'c', 'C', 'a', 'p', 'i', 't', 'a', 'l', 'U']),
  (.char 0xf79f, ['G', 'o', 't', 'h', 'i', 'c', 'C', 'a', 'p', 'i', 't', 'a', 'l', 'V']),
  (.char 0xf7a0, ['G', 'o', 't', 'h', 'i', 'c', 'C', 'a', 'p', 'i', 't', 'a', 'l', 'W']),
  (.char 0xf7a1, ['G', 'o', 't', 'h', 'i', 'c', 'C', 'a', 'p', 'i', 't', 'a', 'l', 'X']),
  (.char 0xf7a2, ['G', 'o', 't', 'h', 'i', 'c', 'C', 'a', 'p', 'i', 't', 'a', 'l', 'Y']),
  (.char 0xf7a4, ['D', 'o', 'u', 'b', 'l', 'e', 'S', 't', 'r', 'u', 'c', 'k', 'C', 'a', 'p', 'i', 't', 'a', 'l', 'A']),
  (.char 0xf7a5, ['D', 'o', 'u', 'b', 'l', 'e', 'S', 't', 'r', 'u', 'c', 'k', 'C', 'a', 'p', 'i', 't', 'a', 'l', 'B']),
  (.char 0xf7a6, ['D', 'o', 'u', 'b', 'l', 'e', 'S', 't', 'r', 'u', 'c', 'k', 'C', 'a', 'p', 'i', 't', 'a', 'l', 'C']),
  (.char 0xf7a7, ['D', 'o', 'u', 'b', 'l', 'e', 'S', 't', 'r', 'u', 'c', 'k', 'C', 'a', 'p', 'i', 't', 'a', 'l', 'D']),
  (.char 0xf7a8, ['D', 'o', 'u', 'b', 'l', 'e', 'S', 't', 'r', 'u', 'c', 'k', 'C', 'a', 'p', 'i', 't', 'a', 'l', 'E']),
  (.char 0xf7a9, ['D', 'o', 'u', 'b', 'l', 'e', 'S', 't', 'r', 'u', 'c', 'k', 'C', 'a', 'p', 'i', 't', 'a', 'l', 'F']),
  (.char 0xf7aa, ['D', 'o', 'u', 'b', 'l', 'e', 'S', 't', 'r', 'u', 'c', 'k', 'C', 'a', 'p', 'i', 't', 'a', 'l', 'G']),
  (.char 0xf7ab, ['D', 'o', 'u', 'b', 'l', 'e', 'S', 't', 'r', 'u', 'c', 'k', 'C', 'a', 'p', 'i', 't', 'a', 'l', 'H']),
  (.char 0xf7ac, ['D', 'o', 'u', 'b', 'l', 'e', 'S', 't', 'r', 'u', 'c', 'k', 'C', 'a', 'p', 'i', 't', 'a', 'l', 'I']),
  (.char 0xf7ad, ['D', 'o', 'u', 'b', 'l', 'e', 'S', 't', 'r', 'u', 'c', 'k', 'C', 'a', 'p', 'i', 't', 'a', 'l', 'J']),
  (.char 0xf7ae, ['D', 'o', 'u', 'b', 'l', 'e', 'S', 't', 'r', 'u', 'c', 'k', 'C', 'a', 'p', 'i', 't', 'a', 'l', 'K']),
  (.char 0xf7af, ['D', 'o', 'u', 'b', 'l', 'e', 'S', 't', 'r', 'u', 'c', 'k', 'C', 'a', 'p', 'i', 't', 'a', 'l', 'L']),
  (.char 0xf7b0, ['D', 'o', 'u', 'b', 'l', 'e', 'S', 't', 'r', 'u', 'c', 'k', 'C', 'a', 'p', 'i', 't', 'a', 'l', 'M']),
  (.char 0xf7b1, ['D', 'o', 'u', 'b', 'l', 'e', 'S', 't', 'r', 'u', 'c', 'k', 'C', 'a', 'p', 'i', 't', 'a', 'l', 'N']),
  (.char 0xf7b2, ['D', 'o', 'u', 'b', 'l', 'e', 'S', 't', 'r', 'u', 'c', 'k', 'C', 'a', 'p', 'i', 't', 'a', 'l', 'O']),
  (.char 0xf7b3, ['D', 'o', 'u', 'b', 'l', 'e', 'S', 't', 'r', 'u', 'c', 'k', 'C', 'a', 'p', 'i', 't', 'a', 'l', 'P']),
  (.char 0xf7b4, ['D', 'o', 'u', 'b', 'l', 'e', 'S', 't', 'r', 'u', 'c', 'k', 'C', 'a', 'p', 'i', 't', 'a', 'l', 'Q']),
  (.char 0xf7b5, ['D', 'o', 'u', 'b', 'l', 'e', 'S', 't', 'r', 'u', 'c', 'k', 'C', 'a', 'p', 'i', 't', 'a', 'l', 'R']),
  (.char 0xf7b6, ['D', 'o', 'u', 'b', 'l', 'e', 'S', 't', 'r', 'u', 'c', 'k', 'C', 'a', 'p', 'i', 't', 'a', 'l', 'S']),
  (.char 0xf7b7, ['D', 'o', 'u', 'b', 'l', 'e', 'S', 't', 'r', 'u', 'c', 'k', 'C', 'a', 'p', 'i', 't', 'a', 'l', 'T']),
  (.char 0xf7b8, ['D', 'o', 'u', 'b', 'l', 'e', 'S', 't', 'r', 'u', 'c', 'k', 'C', 'a', 'p', 'i', 't', 'a', 'l', 'U']),
  (.char 0xf7b9, ['D', 'o', 'u', 'b', 'l', 'e', 'S', 't', 'r', 'u', 'c', 'k', 'C', 'a', 'p', 'i', 't', 'a', 'l', 'V']),
  (.char 0xf7ba, ['D', 'o', 'u', 'b', 'l', 'e', 'S', 't', 'r', 'u', 'c', 'k', 'C', 'a', 'p', 'i', 't', 'a', 'l', 'W']),
  (.char 0xf7bb, ['D', 'o', 'u', 'b', 'l', 'e', 'S', 't', 'r', 'u', 'c', 'k', 'C', 'a', 'p', 'i', 't', 'a', 'l', 'X']),
  (.char 0xf7bc, ['D', 'o', 'u', 'b', 'l', 'e', 'S', 't', 'r', 'u', 'c', 'k', 'C', 'a', 'p', 'i', 't', 'a', 'l', 'Y']),
  (.char 0xf7bd, ['D', 'o', 'u', 'b', 'l', 'e', 'S', 't', 'r', 'u', 'c', 'k', 'C', 'a', 'p', 'i', 't', 'a', 'l', 'Z']),
  (.char 0xf7be, ['T', 'a', 'b', 'K', 'e', 'y']),
  (.char 0xf7bf, ['S', 'p', 'a', 'c', 'e', 'K', 'e', 'y']),
  (.char 0xf7d0, ['D', 'e', 'l', 'e', 't', 'e', 'K', 'e', 'y']),
  (.char 0xf7d1, ['A', 'l', 't', 'K', 'e', 'y']),
  (.char 0xf7d2, ['O', 'p', 't', 'i', 'o', 'n', 'K', 'e', 'y']),
  (.char 0xf7d3, ['K', 'e', 'y', 'B', 'a', 'r']),
  (.char 0xf7d4, ['E', 'n', 't', 'e', 'r', 'K', 'e', 'y']),
  (.char 0xf7d5, ['S', 'h', 'i', 'f', 't', 'K', 'e', 'y']),
  (.char 0xf7d6, ['M', 'o', 'd', '1', 'K', 'e', 'y']),
  (.char 0xf7d7, ['M', 'o', 'd', '2', 'K', 'e', 'y']),
  (.char 0xf7d9, ['L', 'o', 'n', 'g', 'E', 'q', 'u', 'a', 'l']),
  (.char 0xf7da, ['C', 'o', 'n', 's', 't', 'a', 'n', 't', 'C']),
  (.char 0xf7db, ['D', 'o', 'u', 'b', 'l', 'e', 'S', 't', 'r', 'u', 'c', 'k', 'Z', 'e', 'r', 'o']),
  (.char 0xf7dc, ['D', 'o', 'u', 'b', 'l', 'e', 'S', 't', 'r', 'u', 'c', 'k', 'O', 'n', 'e']),
  (.char 0xf7dd, ['D', 'o', 'u', 'b', 'l', 'e', 'S', 't', 'r', 'u', 'c', 'k', 'T', 'w', 'o']),
  (.char 0xf7de, ['D', 'o', 'u', 'b', 'l', 'e', 'S', 't', 'r', 'u', 'c', 'k', 'T', 'h', 'r', 'e', 'e']),
  (.char 0xf7df, ['D', 'o', 'u', 'b', 'l', 'e', 'S', 't', 'r', 'u', 'c', 'k', 'F', 'o', 'u', 'r']),
  (.char 0xf7e0, ['D', 'o', 'u', 'b', 'l', 'e', 'S', 't', 'r', 'u', 'c', 'k', 'F', 'i', 'v', 'e']),
  (.char 0xf7e1, ['D', 'o', 'u', 'b', 'l', 'e', 'S', 't', 'r', 'u', 'c', 'k', 'S', 'i', 'x']),
  (.char 0xf7e2, ['D', 'o', 'u', 'b', 'l', 'e', 'S', 't', 'r', 'u', 'c', 'k', 'S', 'e', 'v', 'e', 'n']),
  (.char 0xf7e3, ['D', 'o', 'u', 'b', 'l', 'e', 'S', 't', 'r', 'u', 'c', 'k', 'E', 'i', 'g', 'h', 't']),
  (.char 0xf7e4, ['D', 'o', 'u', 'b', 'l', 'e', 'S', 't', 'r', 'u', 'c', 'k', 'N', 'i', 'n', 'e']),
  (.char 0xf7e5, ['G', 'o', 't', 'h', 'i', 'c', 'Z', 'e', 'r', 'o']),
  (.char 0xf7e6, ['G', 'o', 't', 'h', 'i', 'c', 'O', 'n', 'e']),
  (.char 0xf7e7, ['G', 'o', 't', 'h', 'i', 'c', 'T', 'w', 'o']),
  (.char 0xf7e8, ['G', 'o', 't', 'h', 'i', 'c', 'T', 'h', 'r', 'e', 'e']),
  (.char 0xf7e9, ['G', 'o', 't', 'h', 'i', 'c', 'F', 'o', 'u', 'r']),
  (.char 0xf7ea, ['G', 'o', 't', 'h', 'i', 'c', 'F', 'i', 'v', 'e']),
  (.char 0xf7eb, ['G', 'o', 't', 'h', 'i', 'c', 'S', 'i', 'x']),
  (.char 0xf7ec, ['G', 'o', 't', 'h', 'i', 'c', 'S', 'e', 'v', 'e', 'n']),
  (.char 0xf7ed, ['G', 'o', 't', 'h', 'i', 'c', 'E', 'i', 'g', 'h', 't']),
  (.char 0xf7ef, ['G', 'o', 't', 'h', 'i', 'c', 'N', 'i', 'n', 'e']),
  (.char 0xf7f0, ['S', 'c', 'r', 'i', 'p', 't', 'Z', 'e', 'r', 'o']),
  (.char 0xf7f1, ['S', 'c', 'r', 'i', 'p', 't', 'O', 'n', 'e']),
  (.char 0xf7f2, ['S', 'c', 'r', 'i', 'p', 't', 'T', 'w', 'o']),
  (.char 0xf7f3, ['S', 'c', 'r', 'i', 'p', 't', 'T', 'h', 'r', 'e', 'e']),
  (.char 0xf7f4, ['S', 'c', 'r', 'i', 'p', 't', 'F', 'o', 'u', 'r']),
  (.char 0xf7f5, ['S', 'c', 'r', 'i', 'p', 't', 'F', 'i', 'v', 'e']),
  (.char 0xf7f6, ['S', 'c', 'r', 'i', 'p', 't', 'S', 'i', 'x']),
  (.char 0xf7f7, ['S', 'c', 'r', 'i', 'p', 't', 'S', 'e', 'v', 'e', 'n']),
  (.char 0xf7f8, ['S', 'c', 'r', 'i', 'p', 't', 'E', 'i', 'g', 'h', 't']),
  (.char 0xf7f9, ['S', 'c', 'r', 'i', 'p', 't', 'N', 'i', 'n', 'e']),
  (.char 0xf7fa, ['F', 'i', 'r', 's', 't', 'P', 'a', 'g', 'e']),
  (.char 0xf7fb, ['L', 'a', 's', 't', 'P', 'a', 'g', 'e']),
  (.char 0xf7fc, ['N', 'u', 'm', 'b', 'e', 'r', 'C', 'o', 'm', 'm', 'a']),
  (.char 0xf800, ['F', 'o', 'r', 'm', 'a', 'l', 'A']),
  (.char 0xf801, ['F', 'o', 'r', 'm', 'a', 'l', 'B']),
  (.char 0xf802, ['F', 'o', 'r', 'm', 'a', 'l', 'C']),
  (.char 0xf803, ['F', 'o', 'r', 'm', 'a', 'l', 'D']),
  (.char 0xf804, ['F', 'o', 'r', 'm', 'a', 'l', 'E']),
  (.char 0xf805, ['F', 'o', 'r', 'm', 'a', 'l', 'F']),
  (.char 0xf806, ['F', 'o', 'r', 'm', 'a', 'l', 'G']),
  (.char 0xf807, ['F', 'o', 'r', 'm', 'a', 'l', 'H']),
  (.char 0xf808, ['F', 'o', 'r', 'm', 'a', 'l', 'I']),
  (.char 0xf809, ['F', 'o', 'r', 'm', 'a', 'l', 'J']),
  (.char 0xf80a, ['F', 'o', 'r', 'm', 'a', 'l', 'K']),
  (.char 0xf80b, ['F', 'o', 'r', 'm', 'a', 'l', 'L']),
  (.char 0xf80c, ['F', 'o', 'r', 'm', 'a', 'l', 'M']),
  (.char 0xf80d, ['F', 'o', 'r', 'm', 'a', 'l', 'N']),
  (.char 0xf80e, ['F', 'o', 'r', 'm', 'a', 'l', 'O']),
  (.char 0xf80f, ['F', 'o', 'r', 'm', 'a', 'l', 'P']),
  (.char 0xf810, ['F', 'o', 'r', 'm', 'a', 'l', 'Q']),
  (.char 0xf811, ['F', 'o', 'r', 'm', 'a', 'l', 'R']),
  (.char 0xf812, ['F', 'o', 'r', 'm', 'a', 'l', 'S']),
  (.char 0xf813, ['F', 'o', 'r', 'm', 'a', 'l', 'T']),
  (.char 0xf814, ['F', 'o', 'r', 'm', 'a', 'l', 'U']),
  (.char 0xf815, ['F', 'o', 'r', 'm', 'a', 'l', 'V']),
  (.char 0xf816, ['F', 'o', 'r', 'm', 'a', 'l', 'W']),
  (.char 0xf817, ['F', 'o', 'r', 'm', 'a', 'l', 'X']),
  (.char 0xf818, ['F', 'o', 'r', 'm', 'a', 'l', 'Y']),
  (.char 0xf819, ['F', 'o', 'r', 'm', 'a', 'l', 'Z']),
  (.char 0xf81a, ['F', 'o', 'r', 'm', 'a', 'l', 'C', 'a', 'p', 'i', 't', 'a', 'l', 'A']),
  (.char 0xf81b, ['F', 'o', 'r', 'm', 'a', 'l', 'C', 'a', 'p', 'i', 't', 'a', 'l', 'B']),
  (.char 0xf81c, ['F', 'o', 'r', 'm', 'a', 'l', 'C', 'a', 'p', 'i', 't', 'a', 'l', 'C']),
  (.char 0xf81d, ['F', 'o', 'r', 'm', 'a', 'l', 'C', 'a', 'p', 'i', 't', 'a', 'l', 'D']),
  (.char 0xf81e, ['F', 'o', 'r', 'm', 'a', 'l', 'C', 'a', 'p', 'i', 't', 'a', 'l', 'E']),
  (.char 0xf81f, ['F', 'o', 'r', 'm', 'a', 'l', 'C', 'a', 'p', 'i', 't', 'a', 'l', 'F']),
  (.char 0xf820, ['F', 'o', 'r', 'm', 'a', 'l', 'C', 'a', 'p', 'i', 't', 'a', 'l', 'G']),
  (.char 0xf821, ['F', 'o', 'r', 'm', 'a', 'l', 'C', 'a', 'p', 'i', 't', 'a', 'l', 'H']),
  (.char 0xf822, ['F', 'o', 'r', 'm', 'a', 'l', 'C', 'a', 'p', 'i', 't', 'a', 'l', 'I']),
  (.char 0xf823, ['F', 'o', 'r', 'm', 'a', 'l', 'C', 'a', 'p', 'i', 't', 'a', 'l', 'J']),
  (.char 0xf824, ['F', 'o', 'r', 'm', 'a', 'l', 'C', 'a', 'p', 'i', 't', 'a', 'l', 'K']),
  (.char 0xf825, ['F', 'o', 'r', 'm', 'a', 'l', 'C', 'a', 'p', 'i', 't', 'a', 'l', 'L']),
  (.char 0xf826, ['F', 'o', 'r', 'm', 'a', 'l', 'C', 'a', 'p', 'i', 't', 'a', 'l', 'M']),
  (.char 0xf827, ['F', 'o', 'r', 'm', 'a', 'l', 'C', 'a', 'p', 'i', 't', 'a', 'l', 'N']),
  (.char 0xf828, ['F', 'o', 'r', 'm', 'a', 'l', 'C', 'a', 'p', 'i', 't', 'a', 'l', 'O']),
  (.char 0xf829, ['F', 'o', 'r', 'm', 'a', 'l', 'C', 'a', 'p', 'i', 't', 'a', 'l', 'P']),
  (.char 0xf82a, ['F', 'o', 'r', 'm', 'a', 'l', 'C', 'a', 'p', 'i', 't', 'a', 'l', 'Q']),
  (.char 0xf82b, ['F', 'o', 'r', 'm', 'a', 'l', 'C', 'a', 'p', 'i', 't', 'a', 'l', 'R']),
  (.char 0xf82c, ['F', 'o', 'r', 'm', 'a', 'l', 'C', 'a', 'p', 'i', 't', 'a', 'l', 'S']),
  (.char 0xf82d, ['F', 'o', 'r', 'm', 'a', 'l', 'C', 'a', 'p', 'i', 't', 'a', 'l', 'T']),
  (.char 0xf82e, ['F', 'o', 'r', 'm', 'a', 'l', 'C', 'a', 'p', 'i', 't', 'a', 'l', 'U']),
  (.char 0xf82f, ['F', 'o', 'r', 'm', 'a', 'l', 'C', 'a', 'p', 'i', 't', 'a', 'l', 'V']),
  (.char 0xf830, ['F', 'o', 'r', 'm', 'a', 'l', 'C', 'a', 'p', 'i', 't', 'a', 'l', 'W']),
  (.char 0xf831, ['F', 'o', 'r', 'm', 'a', 'l', 'C', 'a', 'p', 'i', 't', 'a', 'l', 'X']),
  (.char 0xf832, ['F', 'o', 'r', 'm', 'a', 'l', 'C', 'a', 'p', 'i', 't', 'a', 'l', 'Y']),
  (.char 0xf833, ['F', 'o', 'r', 'm', 'a', 'l', 'C', 'a', 'p', 'i', 't', 'a', 'l', 'Z']),
  (.char 0xf834, ['F', 'o', 'r', 'm', 'a', 'l', 'C', 'a', 'p', 'i', 't', 'a', 'l', 'A', 'l', 'p', 'h', 'a']),
  (.char 0xf835, ['F', 'o', 'r', 'm', 'a', 'l', 'C', 'a', 'p', 'i', 't', 'a', 'l', 'B', 'e', 't', 'a']),
  (.char 0xf836, ['F', 'o', 'r', 'm', 'a', 'l', 'C', 'a', 'p', 'i', 't', 'a', 'l', 'G', 'a', 'm', 'm', 'a']),
  (.char 0xf837, ['F', 'o', 'r', 'm', 'a', 'l', 'C', 'a', 'p', 'i', 't', 'a', 'l', 'D', 'e', 'l', 't', 'a']),
  (.char 0xf838, ['F', 'o', 'r', 'm', 'a', 'l', 'C', 'a', 'p', 'i', 't', 'a', 'l', 'E', 'p', 's', 'i', 'l', 'o', 'n']),
  (.char 0xf839, ['F', 'o', 'r', 'm', 'a', 'l', 'C', 'a', 'p', 'i', 't', 'a', 'l', 'Z', 'e', 't', 'a']),
  (.char 0xf83a, ['F', 'o', 'r', 'm', 'a', 'l', 'C', 'a', 'p', 'i', 't', 'a', 'l', 'E', 't', 'a']),
  (.char 0xf83b, ['F', 'o', 'r', 'm', 'a', 'l', 'C', 'a', 'p', 'i', 't', 'a', 'l', 'T', 'h', 'e', 't', 'a']),
  (.char 0xf83c, ['F', 'o', 'r', 'm', 'a', 'l', 'C', 'a', 'p', 'i', 't', 'a', 'l', 'I', 'o', 't', 'a']),
  (.char 0xf83d, ['F', 'o', 'r', 'm', 'a', 'l', 'C', 'a', 'p', 'i', 't', 'a', 'l', 'K', 'a', 'p', 'p', 'a']),
  (.char 0xf83e, ['F', 'o', 'r', 'm', 'a', 'l', 'C', 'a', 'p', 'i', 't', 'a', 'l', 'L', 'a', 'm', 'b', 'd', 'a']),
  (.char 0xf83f, ['F', 'o', 'r', 'm', 'a', 'l', 'C', 'a', 'p', 'i', 't', 'a', 'l', 'M', 'u']),
  (.char 0xf840, ['F', 'o', 'r', 'm', 'a', 'l', 'C', 'a', 'p', 'i', 't', 'a', 'l', 'N', 'u']),
  (.char 0xf841, ['F', 'o', 'r', 'm', 'a', 'l', 'C', 'a', 'p', 'i', 't', 'a', 'l', 'X', 'i']),
  (.char 0xf842, ['F', 'o', 'r', 'm', 'a', 'l', 'C', 'a', 'p', 'i', 't', 'a', 'l', 'O', 'm', 'i', 'c', 'r', 'o', 'n']),
  (.char 0xf843, ['F', 'o', 'r', 'm', 'a', 'l', 'C', 'a', 'p', 'i', 't', 'a', 'l', 'P', 'i']),
  (.char 0xf844, ['F', 'o', 'r', 'm', 'a', 'l', 'C', 'a', 'p', 'i', 't', 'a', 'l', 'R', 'h', 'o']),
  (.char 0xf846, ['F', 'o', 'r', 'm', 'a', 'l', 'C', 'a', 'p', 'i', 't', 'a', 'l', 'S', 'i', 'g', 'm', 'a']),
  (.char 0xf847, ['F', 'o', 'r', 'm', 'a', 'l', 'C', 'a', 'p', 'i', 't', 'a', 'l', 'T', 'a', 'u']),
  (.char 0xf848, ['F', 'o', 'r', 'm', 'a', 'l', 'C', 'a', 'p', 'i', 't', 'a', 'l', 'U', 'p', 's', 'i', 'l', 'o', 'n']),
  (.char 0xf849, ['F', 'o', 'r', 'm', 'a', 'l', 'C', 'a', 'p', 'i', 't', 'a', 'l', 'P', 'h', 'i']),
  (.char 0xf84a, ['F', 'o', 'r', 'm', 'a', 'l', 'C', 'a', 'p', 'i', 't', 'a', 'l', 'C', 'h', 'i']),
  (.char 0xf84b, ['F', 'o', 'r', 'm', 'a', 'l', 'C', 'a', 'p', 'i', 't', 'a', 'l', 'P', 's', 'i']),
  (.char 0xf84c, ['F', 'o', 'r', 'm', 'a', 'l', 'C', 'a', 'p', 'i', 't', 'a', 'l', 'O', 'm', 'e', 'g', 'a']),
  (.char 0xf854, ['F', 'o', 'r', 'm', 'a', 'l', 'A', 'l', 'p', 'h', 'a']),
  (.char 0xf855, ['F', 'o', 'r', 'm', 'a', 'l', 'B', 'e', 't', 'a']),
  (.char 0xf856, ['F', 'o', 'r', 'm', 'a', 'l', 'G', 'a', 'm', 'm', 'a']),
  (.char 0xf857, ['F', 'o', 'r', 'm', 'a', 'l', 'D', 'e', 'l', 't', 'a']),
  (.char 0xf858, ['F', 'o', 'r', 'm', 'a', 'l', 'C', 'u', 'r', 'l', 'y', 'E', 'p', 's', 'i', 'l', 'o', 'n']),
  (.char 0xf859, ['F', 'o', 'r', 'm', 'a', 'l', 'Z', 'e', 't', 'a']),
  (.char 0xf85a, ['F', 'o', 'r', 'm', 'a', 'l', 'E', 't', 'a']),
  (.char 0xf85b, ['F', 'o', 'r', 'm', 'a', 'l', 'T', 'h', 'e', 't', 'a']),
  (.char 0xf85c, ['F', 'o', 'r', 'm', 'a', 'l', 'I', 'o', 't', 'a']),
  (.char 0xf85d, ['F', 'o', 'r', 'm', 'a', 'l', 'K', 'a', 'p', 'p', 'a']),
  (.char 0xf85e, ['F', 'o', 'r', 'm', 'a', 'l', 'L', 'a', 'm', 'b', 'd', 'a']),
  (.char 0xf85f, ['F', 'o', 'r', 'm', 'a', 'l', 'M', 'u']),
  (.char 0xf860, ['F', 'o', 'r', 'm', 'a', 'l', 'N', 'u']),
  (.char 0xf861, ['F', 'o', 'r', 'm', 'a', 'l', 'X', 'i']),
  (.char 0xf862, ['F', 'o', 'r', 'm', 'a', 'l', 'O', 'm', 'i', 'c', 'r', 'o', 'n']),
  (.char 0xf863, ['F', 'o', 'r', 'm', 'a', 'l', 'P', 'i']),
  (.char 0xf864, ['F', 'o', 'r', 'm', 'a', 'l', 'R', 'h', 'o']),
  (.char 0xf865, ['F', 'o', 'r', 'm', 'a', 'l', 'F', 'i', 'n', 'a', 'l', 'S', 'i', 'g', 'm', 'a']),
  (.char 0xf866, ['F', 'o', 'r', 'm', 'a', 'l', 'S', 'i', 'g', 'm', 'a']),
  (.char 0xf867, ['F', 'o', 'r', 'm', 'a', 'l', 'T', 'a', 'u']),
  (.char 0xf868, ['F', 'o', 'r', 'm', 'a', 'l', 'U', 'p', 's', 'i', 'l', 'o', 'n']),
  (.char 0xf869, ['F', 'o', 'r', 'm', 'a', 'l', 'C', 'u', 'r', 'l', 'y', 'P', 'h', 'i']),
  (.char 0xf86a, ['F', 'o', 'r', 'm', 'a', 'l', 'C', 'h', 'i']),
  (.char 0xf86b, ['F', 'o', 'r', 'm', 'a', 'l', 'P', 's', 'i']),
  (.char 0xf86c, ['F', 'o', 'r', 'm', 'a', 'l', 'O', 'm', 'e', 'g', 'a']),
  (.char 0xf874, ['F', 'o', 'r', 'm', 'a', 'l', 'C', 'u', 'r', 'l', 'y', 'T', 'h', 'e', 't', 'a']),
  (.char 0xf875, ['F', 'o', 'r', 'm', 'a', 'l', 'C', 'u', 'r', 'l', 'y', 'C', 'a', 'p', 'i', 't', 'a', 'l', 'U', 'p', 's', 'i', 'l', 'o', 'n']),
  (.char 0xf878, ['F', 'o', 'r', 'm', 'a', 'l', 'P', 'h', 'i']),
  (.char 0xf879, ['F', 'o', 'r', 'm', 'a', 'l', 'C', 'u', 'r', 'l', 'y', 'P', 'i']),
  (.char 0xf87d, ['F', 'o', 'r', 'm', 'a', 'l', 'C', 'a', 'p', 'i', 't', 'a', 'l', 'S', 't', 'i', 'g', 'm', 'a']),
  (.char 0xf87e, ['F', 'o', 'r', 'm', 'a', 'l', 'S', 't', 'i', 'g', 'm', 'a']),
  (.char 0xf87f, ['F', 'o', 'r', 'm', 'a', 'l', 'C', 'a', 'p', 'i', 't', 'a', 'l', 'D', 'i', 'g', 'a', 'm', 'm', 'a']),
  (.char 0xf880, ['F', 'o', 'r', 'm', 'a', 'l', 'D', 'i', 'g', 'a', 'm', 'm', 'a']),
  (.char 0xf881, ['F', 'o', 'r', 'm', 'a', 'l', 'C', 'a', 'p', 'i', 't', 'a', 'l', 'K', 'o', 'p', 'p', 'a']),
  (.char 0xf882, ['F', 'o', 'r', 'm', 'a', 'l', 'K', 'o', 'p', 'p', 'a']),
  (.char 0xf883, ['F', 'o', 'r', 'm', 'a', 'l', 'C', 'a', 'p', 'i', 't', 'a', 'l', 'S', 'a', 'm', 'p', 'i']),
  (.char 0xf884, ['F', 'o', 'r', 'm', 'a', 'l', 'S', 'a', 'm', 'p', 'i']),
  (.char 0xf885, ['F', 'o', 'r', 'm', 'a', 'l', 'C', 'u', 'r', 'l', 'y', 'K', 'a', 'p', 'p', 'a']),
  (.char 0xf886, ['F', 'o', 'r', 'm', 'a', 'l', 'C', 'u', 'r', 'l', 'y', 'R', 'h', 'o']),
  (.char 0xf88a, ['F', 'o', 'r', 'm', 'a', 'l', 'E', 'p', 's', 'i', 'l', 'o', 'n']),
  (.char 0xfb01, ['F', 'i', 'L', 'i', 'g', 'a', 't', 'u', 'r', 'e']),
  (.char 0xfb02, ['F', 'l', 'L', 'i', 'g', 'a', 't', 'u', 'r', 'e']),
  (.char 0xfe35, ['O', 'v', 'e', 'r', 'P', 'a', 'r', 'e', 'n', 't', 'h', 'e', 's', 'i', 's']),
  (.char 0xfe36, ['U', 'n', 'd', 'e', 'r', 'P', 'a', 'r', 'e', 'n', 't', 'h', 'e', 's', 'i', 's']),
  (.char 0xfe37, ['O', 'v', 'e', 'r', 'B', 'r', 'a', 'c', 'e']),
  (.char 0xfe38, ['U', 'n', 'd', 'e', 'r', 'B', 'r', 'a', 'c', 'e']),
  (.char 0xfffd, ['U', 'n', 'k', 'n', 'o', 'w', 'n', 'G', 'l', 'y', 'p', 'h']),
  (.char 0xfa000, ['F', 'o', 'r', 'm', 'a', 'l', 'S', 'c', 'r', 'i', 'p', 't', 'A']),
  (.char 0xfa001, ['F', 'o', 'r', 'm', 'a', 'l', 'S', 'c', 'r', 'i', 'p', 't', 'B']),
  (.char 0xfa002, ['F', 'o', 'r', 'm', 'a', 'l', 'S', 'c', 'r', 'i', 'p', 't', 'C']),
  (.char 0xfa003, ['F', 'o', 'r', 'm', 'a', 'l', 'S', 'c', 'r', 'i', 'p', 't', 'D']),
  (.char 0xfa004, ['F', 'o', 'r', 'm', 'a', 'l', 'S', 'c', 'r', 'i', 'p', 't', 'E']),
  (.char 0xfa005, ['F', 'o', 'r', 'm', 'a', 'l', 'S', 'c', 'r', 'i', 'p', 't', 'F']),
  (.char 0xfa006, ['F', 'o', 'r', 'm', 'a', 'l', 'S', 'c', 'r', 'i', 'p', 't', 'G']),
  (.char 0xfa007, ['F', 'o', 'r', 'm', 'a', 'l', 'S', 'c', 'r', 'i', 'p', 't', 'H']),
  (.char 0xfa008, ['F', 'o', 'r', 'm', 'a', 'l', 'S', 'c', 'r', 'i', 'p', 't', 'I']),
  (.char 0xfa009, ['F', 'o', 'r', 'm', 'a', 'l', 'S', 'c', 'r', 'i', 'p', 't', 'J']),
  (.char 0xfa00a, ['F', 'o', 'r', 'm', 'a', 'l', 'S', 'c', 'r', 'i', 'p', 't', 'K']),
  (.char 0xfa00b, ['F', 'o', 'r', 'm', 'a', 'l', 'S', 'c', 'r', 'i', 'p', 't', 'L']),
  (.char 0xfa00c, ['F', 'o', 'r', 'm', 'a', 'l', 'S', 'c', 'r', 'i', 'p', 't', 'M']),
  (.char 0xfa00d, ['F', 'o', 'r', 'm', 'a', 'l', 'S', 'c', 'r', 'i', 'p', 't', 'N']),
  (.char 0xfa00e, ['F', 'o', 'r', 'm', 'a', 'l', 'S', 'c', 'r', 'i', 'p', 't', 'O']),
  (.char 0xfa00f, ['F', 'o', 'r', 'm', 'a', 'l', 'S', 'c', 'r', 'i', 'p', 't', 'P']),
  (.char 0xfa010, ['F', 'o', 'r', 'm', 'a', 'l', 'S', 'c', 'r', 'i', 'p', 't', 'Q']),
  (.char 0xfa011, ['F', 'o', 'r', 'm', 'a', 'l', 'S', 'c', 'r', 'i', 'p', 't', 'R']),
  (.char 0xfa012, ['F', 'o', 'r', 'm', 'a', 'l', 'S', 'c', 'r', 'i', 'p', 't', 'S']),
  (.char 0xfa013, ['F', 'o', 'r', 'm', 'a', 'l', 'S', 'c', 'r', 'i', 'p', 't', 'T']),
  (.char 0xfa014, ['F', 'o', 'r', 'm', 'a', 'l', 'S', 'c', 'r', 'i', 'p', 't', 'U']),
  (.char 0xfa015, ['F', 'o', 'r', 'm', 'a', 'l', 'S', 'c', 'r', 'i', 'p', 't', 'V']),
  (.char 0xfa016, ['F', 'o', 'r', 'm', 'a', 'l', 'S', 'c', 'r', 'i', 'p', 't', 'W']),
  (.char 0xfa017, ['F', 'o', 'r', 'm', 'a', 'l', 'S', 'c', 'r', 'i', 'p', 't', 'X']),
  (.char 0xfa018, ['F', 'o', 'r', 'm', 'a', 'l', 'S', 'c', 'r', 'i', 'p', 't', 'Y']),
  (.char 0xfa019, ['F', 'o', 'r', 'm', 'a', 'l', 'S', 'c', 'r', 'i', 'p', 't', 'Z']),
  (.char 0xfa01a, ['F', 'o', 'r', 'm', 'a', 'l', 'S', 'c', 'r', 'i', 'p', 't', 'C', 'a', 'p', 'i', 't', 'a', 'l', 'A']),
  (.char 0xfa01b, ['F', 'o', 'r', 'm', 'a', 'l', 'S', 'c', 'r', 'i', 'p', 't', 'C', 'a', 'p', 'i', 't', 'a', 'l', 'B']),
  (.char 0xfa01c, ['F', 'o', 'r', 'm', 'a', 'l', 'S', 'c', 'r', 'i', 'p', 't', 'C', 'a', 'p', 'i', 't', 'a', 'l', 'C']),
  (.char 0xfa01d, ['F', 'o', 'r', 'm', 'a', 'l', 'S', 'c', 'r', 'i', 'p', 't', 'C', 'a', 'p', 'i', 't', 'a', 'l', 'D']),
  (.char 0xfa01e, ['F', 'o', 'r', 'm', 'a', 'l', 'S', 'c', 'r', 'i', 'p', 't', 'C', 'a', 'p', 'i', 't', 'a', 'l', 'E']),
  (.char 0xfa01f, ['F', 'o', 'r', 'm', 'a', 'l', 'S', 'c', 'r', 'i', 'p', 't', 'C', 'a', 'p', 'i', 't', 'a', 'l', 'F']),
  (.char 0xfa020, ['F', 'o', 'r', 'm', 'a', 'l', 'S', 'c', 'r', 'i', 'p', 't', 'C', 'a', 'p', 'i', 't', 'a', 'l', 'G']),
  (.char 0xfa021, ['F', 'o', 'r', 'm', 'a', 'l', 'S', 'c', 'r', 'i', 'p', 't', 'C', 'a', 'p', 'i', 't', 'a', 'l', 'H']),
  (.char 0xfa022, ['F', 'o', 'r', 'm', 'a', 'l', 'S', 'c', 'r', 'i', 'p', 't', 'C', 'a', 'p', 'i', 't', 'a', 'l', 'I']),
  (.char 0xfa023, ['F', 'o', 'r', 'm', 'a', 'l', 'S', 'c', 'r', 'i', 'p', 't', 'C', 'a', 'p', 'i', 't', 'a', 'l', 'J']),
  (.char 0xfa024, ['F', 'o', 'r', 'm', 'a', 'l', 'S', 'c', 'r', 'i', 'p', 't', 'C', 'a', 'p', 'i', 't', 'a', 'l', 'K']),
  (.char 0xfa025, ['F', 'o', 'r', 'm', 'a', 'l', 'S', 'c', 'r', 'i', 'p', 't', 'C', 'a', 'p', 'i', 't', 'a', 'l', 'L']),
  (.char 0xfa026, ['F', 'o', 'r', 'm', 'a', 'l', 'S', 'c', 'r', 'i', 'p', 't', 'C', 'a', 'p', 'i', 't', 'a', 'l', 'M']),
  (.char 0xfa027, ['F', 'o', 'r', 'm', 'a', 'l', 'S', 'c', 'r', 'i', 'p', 't', 'C', 'a', 'p', 'i', 't', 'a', 'l', 'N']),
  (.char 0xfa028, ['F', 'o', 'r', 'm', 'a', 'l', 'S', 'c', 'r', 'i', 'p', 't', 'C', 'a', 'p', 'i', 't', 'a', 'l', 'O']),
  (.char 0xfa029, ['F', 'o', 'r', 'm', 'a', 'l', 'S', 'c', 'r', 'i', 'p', 't', 'C', 'a', 'p', 'i', 't', 'a', 'l', 'P']),
  (.char 0xfa02a, ['F', 'o', 'r', 'm', 'a', 'l', 'S', 'c', 'r', 'i', 'p', 't', 'C', 'a', 'p', 'i', 't', 'a', 'l', 'Q']),
  (.char 0xfa02b, ['F', 'o', 'r', 'm', 'a', 'l', 'S', 'c', 'r', 'i', 'p', 't', 'C', 'a', 'p', 'i', 't', 'a', 'l', 'R']),
  (.char 0xfa02c, ['F', 'o', 'r', 'm', 'a', 'l', 'S', 'c', 'r', 'i', 'p', 't', 'C', 'a', 'p', 'i', 't', 'a', 'l', 'S']),
  (.char 0xfa02d, ['F', 'o', 'r', 'm', 'a', 'l', 'S', 'c', 'r', 'i', 'p', 't', 'C', 'a', 'p', 'i', 't', 'a', 'l', 'T']),
  (.char 0xfa02e, ['F', 'o', 'r', 'm', 'a', 'l', 'S', 'c', 'r', 'i', 'p', 't', 'C', 'a', 'p', 'i', 't', 'a', 'l', 'U']),
  (.char 0xfa02f, ['F', 'o', 'r', 'm', 'a', 'l', 'S', 'c', 'r', 'i', 'p', 't', 'C', 'a', 'p', 'i', 't', 'a', 'l', 'V']),
  (.char 0xfa030, ['F', 'o', 'r', 'm', 'a', 'l', 'S', 'c', 'r', 'i', 'p', 't', 'C', 'a', 'p', 'i', 't', 'a', 'l', 'W']),
  (.char 0xfa031, ['F', 'o', 'r', 'm', 'a', 'l', 'S', 'c', 'r', 'i', 'p', 't', 'C', 'a', 'p', 'i', 't', 'a', 'l', 'X']),
  (.char 0xfa032, ['F', 'o', 'r', 'm', 'a', 'l', 'S', 'c', 'r', 'i', 'p', 't', 'C', 'a', 'p', 'i', 't', 'a', 'l', 'Y']),
  (.char 0xfa033, ['F', 'o', 'r', 'm', 'a', 'l', 'S', 'c', 'r', 'i', 'p', 't', 'C', 'a', 'p', 'i', 't', 'a', 'l', 'Z'])]

/-- `RAW_SET`, generated/long_names_registration.rs:3352-3358. -/
def rawSet : List (List Char) := [
  ['N', 'e', 'w', 'L', 'i', 'n', 'e'],
  ['R', 'a', 'w', 'A', 'm', 'p', 'e', 'r', 's', 'a', 'n', 'd'],
  ['R', 'a', 'w', 'A', 't'],
  ['R', 'a', 'w', 'B', 'a', 'c', 'k', 'q', 'u', 'o', 't', 'e'],
  ['R', 'a', 'w', 'B', 'a', 'c', 'k', 's', 'l', 'a', 's', 'h'],
  ['R', 'a', 'w', 'C', 'o', 'l', 'o', 'n'],
  ['R', 'a', 'w', 'C', 'o', 'm', 'm', 'a'],
  ['R', 'a', 'w', 'D', 'a', 's', 'h'],
  ['R', 'a', 'w', 'D', 'o', 'l', 'l', 'a', 'r'],
  ['R', 'a', 'w', 'D', 'o', 't'],
  ['R', 'a', 'w', 'D', 'o', 'u', 'b', 'l', 'e', 'Q', 'u', 'o', 't', 'e'],
  ['R', 'a', 'w', 'E', 'q', 'u', 'a', 'l'],
  ['R', 'a', 'w', 'E', 's', 'c', 'a', 'p', 'e'],
  ['R', 'a', 'w', 'E', 'x', 'c', 'l', 'a', 'm', 'a', 't', 'i', 'o', 'n'],
  ['R', 'a', 'w', 'G', 'r', 'e', 'a', 't', 'e', 'r'],
  ['R', 'a', 'w', 'L', 'e', 'f', 't', 'B', 'r', 'a', 'c', 'e'],
  ['R', 'a', 'w', 'L', 'e', 'f', 't', 'B', 'r', 'a', 'c', 'k', 'e', 't'],
  ['R', 'a', 'w', 'L', 'e', 'f', 't', 'P', 'a', 'r', 'e', 'n', 't', 'h', 'e', 's', 'i', 's'],
  ['R', 'a', 'w', 'L', 'e', 's', 's'],
  ['R', 'a', 'w', 'N', 'u', 'm', 'b', 'e', 'r', 'S', 'i', 'g', 'n'],
  ['R', 'a', 'w', 'P', 'e', 'r', 'c', 'e', 'n', 't'],
  ['R', 'a', 'w', 'P', 'l', 'u', 's'],
  ['R', 'a', 'w', 'Q', 'u', 'e', 's', 't', 'i', 'o', 'n'],
  ['R', 'a', 'w', 'Q', 'u', 'o', 't', 'e'],
  ['R', 'a', 'w', 'R', 'e', 't', 'u', 'r', 'n'],
  ['R', 'a', 'w', 'R', 'i', 'g', 'h', 't', 'B', 'r', 'a', 'c', 'e'],
  ['R', 'a', 'w', 'R', 'i', 'g', 'h', 't', 'B', 'r', 'a', 'c', 'k', 'e', 't'],
  ['R', 'a', 'w', 'R', 'i', 'g', 'h', 't', 'P', 'a', 'r', 'e', 'n', 't', 'h', 'e', 's', 'i', 's'],
  ['R', 'a', 'w', 'S', 'e', 'm', 'i', 'c', 'o', 'l', 'o', 'n'],
  ['R', 'a', 'w', 'S', 'l', 'a', 's', 'h'],
  ['R', 'a', 'w', 'S', 'p', 'a', 'c', 'e'],
  ['R', 'a', 'w', 'S', 't', 'a', 'r'],
  ['R', 'a', 'w', 'T', 'a', 'b'],
  ['R', 'a', 'w', 'T', 'i', 'l', 'd', 'e'],
  ['R', 'a', 'w', 'U', 'n', 'd', 'e', 'r', 's', 'c', 'o', 'r', 'e'],
  ['R', 'a', 'w', 'V', 'e', 'r', 't', 'i', 'c', 'a', 'l', 'B', 'a', 'r'],
  ['R', 'a', 'w', 'W', 'e', 'd', 'g', 'e']]

/-- `MB_NOT_STRAGE_LETTERLIKE_CODE_POINTS`, generated/long_names_registration.rs:3363-3459. -/
def mbNotStrangeLetterlikeTable : List Nat := [
  0xb0, 0x391, 0x392, 0x393, 0x394, 0x395, 0x396, 0x397, 0x398, 0x399, 0x39a, 0x39b, 0x39c, 0x39d,
  0x39e, 0x39f, 0x3a0, 0x3a1, 0x3a3, 0x3a4, 0x3a5, 0x3a6, 0x3a7, 0x3a8, 0x3a9, 0x3b1, 0x3b2, 0x3b3,
  0x3b4, 0x3b5, 0x3b6, 0x3b7, 0x3b8, 0x3b9, 0x3ba, 0x3bb, 0x3bc, 0x3bd, 0x3be, 0x3bf, 0x3c0, 0x3c1,
  0x3c2, 0x3c3, 0x3c4, 0x3c5, 0x3c6, 0x3c7, 0x3c8, 0x3c9, 0x3d1, 0x3d2, 0x3d5, 0x3d6, 0x3da, 0x3db,
  0x3dc, 0x3dd, 0x3de, 0x3df, 0x3e0, 0x3e1, 0x3f0, 0x3f1, 0x3f5, 0x2020, 0x2032, 0x2033, 0x210a,
  0x210b, 0x210c, 0x210f, 0x2110, 0x2111, 0x2112, 0x2113, 0x211b, 0x212c, 0x212f, 0x2130, 0x2131,
  0x2133, 0x2134, 0x221e, 0xf3af, 0xf6b2, 0xf6b3, 0xf6b4, 0xf6b5, 0xf6b7, 0xf6b9, 0xf6ba, 0xf6bb,
  0xf6bc, 0xf6be, 0xf6bf, 0xf6c1, 0xf6c2, 0xf6c3, 0xf6c4, 0xf6c5, 0xf6c6, 0xf6c7, 0xf6c8, 0xf6c9,
  0xf6ca, 0xf6cb, 0xf74d, 0xf74e, 0xf74f, 0xf770, 0xf772, 0xf773, 0xf776, 0xf779, 0xf77a, 0xf77d,
  0xf77e, 0xf77f, 0xf780, 0xf782, 0xf783, 0xf784, 0xf785, 0xf786, 0xf787, 0xf788, 0xf789, 0xf800,
  0xf801, 0xf802, 0xf803, 0xf804, 0xf805, 0xf806, 0xf807, 0xf808, 0xf809, 0xf80a, 0xf80b, 0xf80c,
  0xf80d, 0xf80e, 0xf80f, 0xf810, 0xf811, 0xf812, 0xf813, 0xf814, 0xf815, 0xf816, 0xf817, 0xf818,
  0xf819, 0xf81a, 0xf81b, 0xf81c, 0xf81d, 0xf81e, 0xf81f, 0xf820, 0xf821, 0xf822, 0xf823, 0xf824,
  0xf825, 0xf826, 0xf827, 0xf828, 0xf829, 0xf82a, 0xf82b, 0xf82c, 0xf82d, 0xf82e, 0xf82f, 0xf830,
  0xf831, 0xf832, 0xf833, 0xf834, 0xf835, 0xf836, 0xf837, 0xf838, 0xf839, 0xf83a, 0xf83b, 0xf83c,
  0xf83d, 0xf83e, 0xf83f, 0xf840, 0xf841, 0xf842, 0xf843, 0xf844, 0xf846, 0xf847, 0xf848, 0xf849,
  0xf84a, 0xf84b, 0xf84c, 0xf854, 0xf855, 0xf856, 0xf857, 0xf858, 0xf859, 0xf85a, 0xf85b, 0xf85c,
  0xf85d, 0xf85e, 0xf85f, 0xf860, 0xf861, 0xf862, 0xf863, 0xf864, 0xf865, 0xf866, 0xf867, 0xf868,
  0xf869, 0xf86a, 0xf86b, 0xf86c, 0xf874, 0xf875, 0xf878, 0xf879, 0xf87d, 0xf87e, 0xf87f, 0xf880,
  0xf881, 0xf882, 0xf883, 0xf884, 0xf885, 0xf886, 0xf88a, 0xfa000, 0xfa001, 0xfa002, 0xfa003,
  0xfa004, 0xfa005, 0xfa006, 0xfa007, 0xfa008, 0xfa009, 0xfa00a, 0xfa00b, 0xfa00c, 0xfa00d,
  0xfa00e, 0xfa00f, 0xfa010, 0xfa011, 0xfa012, 0xfa013, 0xfa014, 0xfa015, 0xfa016, 0xfa017,
  0xfa018, 0xfa019, 0xfa01a, 0xfa01b, 0xfa01c, 0xfa01d, 0xfa01e, 0xfa01f, 0xfa020, 0xfa021,
  0xfa022, 0xfa023, 0xfa024, 0xfa025, 0xfa026, 0xfa027, 0xfa028, 0xfa029, 0xfa02a, 0xfa02b,
  0xfa02c, 0xfa02d, 0xfa02e, 0xfa02f, 0xfa030, 0xfa031, 0xfa032, 0xfa033]

/-- `MB_PUNCTUATION_CODE_POINTS`, generated/long_names_registration.rs:4089-4187. -/
def mbPunctuationTable : List Nat := [
  0xac, 0xb1, 0xb7, 0xd7, 0xf7, 0x2018, 0x2019, 0x201c, 0x201d, 0x2062, 0x2190, 0x2191, 0x2192,
  0x2193, 0x2194, 0x2195, 0x2196, 0x2197, 0x2198, 0x2199, 0x21a4, 0x21a5, 0x21a6, 0x21a7, 0x21bc,
  0x21bd, 0x21be, 0x21bf, 0x21c0, 0x21c1, 0x21c2, 0x21c3, 0x21c4, 0x21c5, 0x21c6, 0x21cb, 0x21cc,
  0x21d0, 0x21d1, 0x21d2, 0x21d3, 0x21d4, 0x21d5, 0x21e4, 0x21e5, 0x21f5, 0x2200, 0x2202, 0x2203,
  0x2204, 0x2207, 0x2208, 0x2209, 0x220b, 0x220c, 0x220d, 0x220f, 0x2210, 0x2211, 0x2212, 0x2213,
  0x2215, 0x2216, 0x2218, 0x221a, 0x221b, 0x221d, 0x2223, 0x2225, 0x2226, 0x2227, 0x2228, 0x222b,
  0x222e, 0x222f, 0x2232, 0x2233, 0x2234, 0x2235, 0x2236, 0x2237, 0x223c, 0x2240, 0x2241, 0x2242,
  0x2243, 0x2244, 0x2245, 0x2247, 0x2248, 0x2249, 0x224d, 0x224e, 0x224f, 0x2250, 0x2260, 0x2261,
  0x2262, 0x2264, 0x2265, 0x2266, 0x2267, 0x2268, 0x2269, 0x226a, 0x226b, 0x226d, 0x226e, 0x226f,
  0x2270, 0x2271, 0x2272, 0x2273, 0x2274, 0x2275, 0x2276, 0x2277, 0x2278, 0x2279, 0x227a, 0x227b,
  0x227c, 0x227d, 0x227e, 0x227f, 0x2280, 0x2281, 0x2282, 0x2283, 0x2284, 0x2285, 0x2286, 0x2287,
  0x2288, 0x2289, 0x228e, 0x228f, 0x2290, 0x2291, 0x2292, 0x2293, 0x2294, 0x2295, 0x2296, 0x2297,
  0x2299, 0x22a2, 0x22a3, 0x22a4, 0x22a5, 0x22a8, 0x22b2, 0x22b3, 0x22b4, 0x22b5, 0x22bb, 0x22bc,
  0x22bd, 0x22c0, 0x22c1, 0x22c2, 0x22c3, 0x22c4, 0x22c6, 0x22da, 0x22db, 0x22e0, 0x22e1, 0x22e2,
  0x22e3, 0x22e8, 0x22e9, 0x22ea, 0x22eb, 0x22ec, 0x22ed, 0x2308, 0x2309, 0x230a, 0x230b, 0x2322,
  0x2323, 0x2329, 0x232a, 0x27c2, 0x27f5, 0x27f6, 0x27f7, 0x27f8, 0x27f9, 0x27fa, 0x2912, 0x2913,
  0x294e, 0x294f, 0x2950, 0x2951, 0x2952, 0x2953, 0x2954, 0x2955, 0x2956, 0x2957, 0x2958, 0x2959,
  0x295a, 0x295b, 0x295c, 0x295d, 0x295e, 0x295f, 0x2960, 0x2961, 0x296e, 0x296f, 0x2970, 0x29cf,
  0x29d0, 0x29e6, 0x2a7d, 0x2a7e, 0x2aa1, 0x2aa2, 0x2aaf, 0x2ab0, 0x2ae4, 0x301a, 0x301b, 0xf113,
  0xf114, 0xf120, 0xf361, 0xf39e, 0xf3a8, 0xf3a9, 0xf3b3, 0xf3b4, 0xf3c7, 0xf3c8, 0xf3c9, 0xf3ce,
  0xf3d0, 0xf3d1, 0xf3d2, 0xf3d3, 0xf3d4, 0xf3d5, 0xf3d9, 0xf3da, 0xf3db, 0xf3dc, 0xf3dd, 0xf3de,
  0xf400, 0xf401, 0xf402, 0xf412, 0xf413, 0xf422, 0xf423, 0xf424, 0xf427, 0xf428, 0xf429, 0xf42b,
  0xf42d, 0xf42e, 0xf42f, 0xf431, 0xf432, 0xf434, 0xf435, 0xf436, 0xf437, 0xf438, 0xf439, 0xf43a,
  0xf4a0, 0xf4a1, 0xf4a2, 0xf4a3, 0xf4a4, 0xf4a5, 0xf51f, 0xf520, 0xf522, 0xf523, 0xf525, 0xf526,
  0xf52a, 0xf52b, 0xf530, 0xf603, 0xf604, 0xf605, 0xf606, 0xf74b, 0xf74c, 0xf765, 0xf76d, 0xf7d9]

/-- `MB_WHITESPACE_CODE_POINTS`, generated/long_names_registration.rs:4192-4200. -/
def mbWhitespaceTable : List Nat := [
  0xa0, 0x2005, 0x2009, 0x200a, 0x205f, 0x2060, 0x2423, 0xf360, 0xf380, 0xf382, 0xf383, 0xf384,
  0xf3ad, 0xf3b1, 0xf3b2, 0xf3bd, 0xf3be, 0xf3bf, 0xf3c6, 0xf760]

/-- `MB_UNINTERPRETABLE_CODE_POINTS`, generated/long_names_registration.rs:4215-4218. -/
def mbUninterpretableTable : List Nat := [
  0x2043, 0xf761, 0xf762, 0xf767]

/-- `MB_NEWLINE_CODE_POINTS`, generated/long_names_registration.rs:4205-4210. -/
def mbNewlineTable : List CP := [
  .crlf, .char 0x2028, .char 0x2029, .char 0xf3a3, .char 0xf76e, .char 0xf76f]

/-- The keys of `ASCII_REPLACEMENTS_MAP`, generated/long_names_registration.rs:3464-4084 (the replacement texts only appear in
reported issues). -/
def asciiReplacementKeys : List Nat := [
  0xa0, 0xa2, 0xa8, 0xa9, 0xab, 0xac, 0xad, 0xae, 0xb0, 0xb1, 0xb5, 0xb7, 0xb8, 0xbb, 0xc0, 0xc1,
  0xc2, 0xc3, 0xc4, 0xc5, 0xc6, 0xc7, 0xc8, 0xc9, 0xca, 0xcb, 0xcc, 0xcd, 0xce, 0xcf, 0xd0, 0xd1,
  0xd2, 0xd3, 0xd4, 0xd5, 0xd6, 0xd7, 0xd8, 0xd9, 0xda, 0xdb, 0xdc, 0xdd, 0xde, 0xdf, 0xe0, 0xe1,
  0xe2, 0xe3, 0xe4, 0xe5, 0xe6, 0xe7, 0xe8, 0xe9, 0xea, 0xeb, 0xec, 0xed, 0xee, 0xef, 0xf0, 0xf1,
  0xf2, 0xf3, 0xf4, 0xf5, 0xf6, 0xf7, 0xf8, 0xf9, 0xfa, 0xfb, 0xfc, 0xfd, 0xfe, 0xff, 0x100, 0x101,
  0x102, 0x103, 0x106, 0x107, 0x10c, 0x10d, 0x10e, 0x10f, 0x112, 0x113, 0x114, 0x115, 0x11a, 0x11b,
  0x12c, 0x12d, 0x131, 0x141, 0x142, 0x147, 0x148, 0x150, 0x151, 0x152, 0x153, 0x158, 0x159, 0x160,
  0x161, 0x164, 0x165, 0x16e, 0x16f, 0x170, 0x171, 0x17d, 0x17e, 0x192, 0x2c7, 0x3bc, 0x2005,
  0x2009, 0x200a, 0x2010, 0x2013, 0x2014, 0x2018, 0x2019, 0x201c, 0x201d, 0x2026, 0x2028, 0x2029,
  0x2032, 0x2033, 0x2035, 0x2036, 0x2043, 0x205f, 0x2062, 0x210a, 0x210b, 0x210c, 0x210f, 0x2110,
  0x2111, 0x2112, 0x2113, 0x2118, 0x211b, 0x211c, 0x2122, 0x2128, 0x212b, 0x212c, 0x212d, 0x212f,
  0x2130, 0x2131, 0x2133, 0x2134, 0x2190, 0x2192, 0x2194, 0x21a4, 0x21a6, 0x21d0, 0x21d2, 0x21d4,
  0x21e4, 0x21e5, 0x2212, 0x2213, 0x2215, 0x2216, 0x2218, 0x221e, 0x2223, 0x2225, 0x2226, 0x2227,
  0x2228, 0x2236, 0x223c, 0x2241, 0x2242, 0x2243, 0x2244, 0x2245, 0x2247, 0x2248, 0x2249, 0x2260,
  0x2264, 0x2265, 0x2266, 0x2267, 0x2268, 0x2269, 0x226a, 0x226b, 0x226e, 0x226f, 0x2270, 0x2271,
  0x2272, 0x2273, 0x2274, 0x2275, 0x2276, 0x2277, 0x2278, 0x2279, 0x2295, 0x2296, 0x2297, 0x2299,
  0x22a2, 0x22a3, 0x22a8, 0x22b2, 0x22b3, 0x22b4, 0x22b5, 0x22c0, 0x22c4, 0x22c6, 0x22da, 0x22db,
  0x22ea, 0x22eb, 0x22ec, 0x22ed, 0x22ef, 0x2329, 0x232a, 0x2423, 0x2639, 0x263a, 0x266f, 0x27f5,
  0x27f6, 0x27f7, 0x27f8, 0x27f9, 0x27fa, 0x29cf, 0x29d0, 0x29e6, 0x2a7d, 0x2a7e, 0x2aa1, 0x2aa2,
  0x2ae4, 0x301a, 0x301b, 0xf113, 0xf114, 0xf120, 0xf360, 0xf380, 0xf382, 0xf383, 0xf384, 0xf39e,
  0xf3a0, 0xf3a3, 0xf3b1, 0xf3b2, 0xf3b3, 0xf3b4, 0xf3bd, 0xf3be, 0xf3bf, 0xf3c6, 0xf3c7, 0xf3c8,
  0xf3c9, 0xf3ce, 0xf3d0, 0xf3d1, 0xf3d5, 0xf3d9, 0xf400, 0xf412, 0xf413, 0xf422, 0xf423, 0xf424,
  0xf427, 0xf428, 0xf429, 0xf431, 0xf432, 0xf4a0, 0xf4a1, 0xf51f, 0xf520, 0xf522, 0xf523, 0xf525,
  0xf526, 0xf527, 0xf528, 0xf603, 0xf604, 0xf605, 0xf606, 0xf6b2, 0xf6b3, 0xf6b4, 0xf6b5, 0xf6b7,
  0xf6b9, 0xf6ba, 0xf6bb, 0xf6bc, 0xf6be, 0xf6bf, 0xf6c1, 0xf6c2, 0xf6c3, 0xf6c4, 0xf6c5, 0xf6c6,
  0xf6c7, 0xf6c8, 0xf6c9, 0xf6ca, 0xf6cb, 0xf6cc, 0xf6cd, 0xf6ce, 0xf6cf, 0xf6d0, 0xf6d1, 0xf6d2,
  0xf6d3, 0xf6d4, 0xf6d5, 0xf6d6, 0xf6d7, 0xf6d8, 0xf6d9, 0xf6da, 0xf6db, 0xf6dc, 0xf6dd, 0xf6de,
  0xf6df, 0xf6e0, 0xf6e1, 0xf6e2, 0xf6e3, 0xf6e4, 0xf6e5, 0xf6e6, 0xf6e7, 0xf6e8, 0xf6e9, 0xf6ea,
  0xf6eb, 0xf6ec, 0xf6ed, 0xf6ee, 0xf6ef, 0xf6f0, 0xf6f1, 0xf6f2, 0xf6f3, 0xf6f4, 0xf6f5, 0xf6f6,
  0xf6f7, 0xf6f8, 0xf6f9, 0xf6fa, 0xf6fb, 0xf6fc, 0xf6fd, 0xf6fe, 0xf6ff, 0xf700, 0xf721, 0xf722,
  0xf724, 0xf730, 0xf731, 0xf74b, 0xf74c, 0xf74d, 0xf74e, 0xf74f, 0xf754, 0xf758, 0xf761, 0xf762,
  0xf763, 0xf765, 0xf766, 0xf767, 0xf769, 0xf76a, 0xf76b, 0xf76c, 0xf76d, 0xf76e, 0xf76f, 0xf770,
  0xf772, 0xf773, 0xf776, 0xf779, 0xf77a, 0xf77d, 0xf77e, 0xf77f, 0xf780, 0xf782, 0xf783, 0xf784,
  0xf785, 0xf786, 0xf787, 0xf788, 0xf789, 0xf78a, 0xf78b, 0xf78d, 0xf78e, 0xf78f, 0xf790, 0xf793,
  0xf794, 0xf795, 0xf796, 0xf797, 0xf798, 0xf799, 0xf79a, 0xf79c, 0xf79d, 0xf79e, 0xf79f, 0xf7a0,
  0xf7a1, 0xf7a2, 0xf7a4, 0xf7a5, 0xf7a6, 0xf7a7, 0xf7a8, 0xf7a9, 0xf7aa, 0xf7ab, 0xf7ac, 0xf7ad,
  0xf7ae, 0xf7af, 0xf7b0, 0xf7b1, 0xf7b2, 0xf7b3, 0xf7b4, 0xf7b5, 0xf7b6, 0xf7b7, 0xf7b8, 0xf7b9,
  0xf7ba, 0xf7bb, 0xf7bc, 0xf7bd, 0xf7be, 0xf7bf, 0xf7d0, 0xf7d1, 0xf7d2, 0xf7d9, 0xf7da, 0xf7db,
  0xf7dc, 0xf7dd, 0xf7de, 0xf7df, 0xf7e0, 0xf7e1, 0xf7e2, 0xf7e3, 0xf7e4, 0xf7e5, 0xf7e6, 0xf7e7,
  0xf7e8, 0xf7e9, 0xf7ea, 0xf7eb, 0xf7ec, 0xf7ed, 0xf7ef, 0xf7f0, 0xf7f1, 0xf7f2, 0xf7f3, 0xf7f4,
  0xf7f5, 0xf7f6, 0xf7f7, 0xf7f8, 0xf7f9, 0xf7fc, 0xf800, 0xf801, 0xf802, 0xf803, 0xf804, 0xf805,
  0xf806, 0xf807, 0xf808, 0xf809, 0xf80a, 0xf80b, 0xf80c, 0xf80d, 0xf80e, 0xf80f, 0xf810, 0xf811,
  0xf812, 0xf813, 0xf814, 0xf815, 0xf816, 0xf817, 0xf818, 0xf819, 0xf81a, 0xf81b, 0xf81c, 0xf81d,
  0xf81e, 0xf81f, 0xf820, 0xf821, 0xf822, 0xf823, 0xf824, 0xf825, 0xf826, 0xf827, 0xf828, 0xf829,
  0xf82a, 0xf82b, 0xf82c, 0xf82d, 0xf82e, 0xf82f, 0xf830, 0xf831, 0xf832, 0xf833, 0xfb01, 0xfb02,
  0xfffd, 0xfa000, 0xfa001, 0xfa002, 0xfa003, 0xfa004, 0xfa005, 0xfa006, 0xfa007, 0xfa008, 0xfa009,
  0xfa00a, 0xfa00b, 0xfa00c, 0xfa00d, 0xfa00e, 0xfa00f, 0xfa010, 0xfa011, 0xfa012, 0xfa013,
  0xfa014, 0xfa015, 0xfa016, 0xfa017, 0xfa018, 0xfa019, 0xfa01a, 0xfa01b, 0xfa01c, 0xfa01d,
  0xfa01e, 0xfa01f, 0xfa020, 0xfa021, 0xfa022, 0xfa023, 0xfa024, 0xfa025, 0xfa026, 0xfa027,
  0xfa028, 0xfa029, 0xfa02a, 0xfa02b, 0xfa02c, 0xfa02d, 0xfa02e, 0xfa02f, 0xfa030, 0xfa031,
  0xfa032, 0xfa033]

/-- The arms of `LongNameCodePointToOperator`, generated/long_names_registration.rs:4223-4528, in order. -/
def longNameOperatorTable : List (Nat × TK) := [
  (0xac, .LongName_Not), (0xb1, .LongName_PlusMinus), (0xb7, .LongName_CenterDot),
  (0xd7, .LongName_Times), (0xf7, .LongName_Divide), (0x2018, .LongName_OpenCurlyQuote),
  (0x2019, .LongName_CloseCurlyQuote), (0x201c, .LongName_OpenCurlyDoubleQuote),
  (0x201d, .LongName_CloseCurlyDoubleQuote), (0x2062, .LongName_InvisibleTimes),
  (0x2190, .LongName_LeftArrow), (0x2191, .LongName_UpArrow), (0x2192, .LongName_RightArrow),
  (0x2193, .LongName_DownArrow), (0x2194, .LongName_LeftRightArrow),
  (0x2195, .LongName_UpDownArrow), (0x2196, .LongName_UpperLeftArrow),
  (0x2197, .LongName_UpperRightArrow), (0x2198, .LongName_LowerRightArrow),
  (0x2199, .LongName_LowerLeftArrow), (0x21a4, .LongName_LeftTeeArrow),
  (0x21a5, .LongName_UpTeeArrow), (0x21a6, .LongName_RightTeeArrow),
  (0x21a7, .LongName_DownTeeArrow), (0x21bc, .LongName_LeftVector),
  (0x21bd, .LongName_DownLeftVector), (0x21be, .LongName_RightUpVector),
  (0x21bf, .LongName_LeftUpVector), (0x21c0, .LongName_RightVector),
  (0x21c1, .LongName_DownRightVector), (0x21c2, .LongName_RightDownVector),
  (0x21c3, .LongName_LeftDownVector), (0x21c4, .LongName_RightArrowLeftArrow),
  (0x21c5, .LongName_UpArrowDownArrow), (0x21c6, .LongName_LeftArrowRightArrow),
  (0x21cb, .LongName_ReverseEquilibrium), (0x21cc, .LongName_Equilibrium),
  (0x21d0, .LongName_DoubleLeftArrow), (0x21d1, .LongName_DoubleUpArrow),
  (0x21d2, .LongName_DoubleRightArrow), (0x21d3, .LongName_DoubleDownArrow),
  (0x21d4, .LongName_DoubleLeftRightArrow), (0x21d5, .LongName_DoubleUpDownArrow),
  (0x21e4, .LongName_LeftArrowBar), (0x21e5, .LongName_RightArrowBar),
  (0x21f5, .LongName_DownArrowUpArrow), (0x2200, .LongName_ForAll), (0x2202, .LongName_PartialD),
  (0x2203, .LongName_Exists), (0x2204, .LongName_NotExists), (0x2207, .LongName_Del),
  (0x2208, .LongName_Element), (0x2209, .LongName_NotElement), (0x220b, .LongName_ReverseElement),
  (0x220c, .LongName_NotReverseElement), (0x220d, .LongName_SuchThat), (0x220f, .LongName_Product),
  (0x2210, .LongName_Coproduct), (0x2211, .LongName_Sum), (0x2212, .LongName_Minus),
  (0x2213, .LongName_MinusPlus), (0x2215, .LongName_DivisionSlash), (0x2216, .LongName_Backslash),
  (0x2218, .LongName_SmallCircle), (0x221a, .LongName_Sqrt), (0x221b, .LongName_CubeRoot),
  (0x221d, .LongName_Proportional), (0x2223, .LongName_Divides),
  (0x2225, .LongName_DoubleVerticalBar), (0x2226, .LongName_NotDoubleVerticalBar),
  (0x2227, .LongName_And), (0x2228, .LongName_Or), (0x222b, .LongName_Integral),
  (0x222e, .LongName_ContourIntegral), (0x222f, .LongName_DoubleContourIntegral),
  (0x2232, .LongName_ClockwiseContourIntegral),
  (0x2233, .LongName_CounterClockwiseContourIntegral), (0x2234, .LongName_Therefore),
  (0x2235, .LongName_Because), (0x2236, .LongName_Colon), (0x2237, .LongName_Proportion),
  (0x223c, .LongName_Tilde), (0x2240, .LongName_VerticalTilde), (0x2241, .LongName_NotTilde),
  (0x2242, .LongName_EqualTilde), (0x2243, .LongName_TildeEqual),
  (0x2244, .LongName_NotTildeEqual), (0x2245, .LongName_TildeFullEqual),
  (0x2247, .LongName_NotTildeFullEqual), (0x2248, .LongName_TildeTilde),
  (0x2249, .LongName_NotTildeTilde), (0x224d, .LongName_CupCap), (0x224e, .LongName_HumpDownHump),
  (0x224f, .LongName_HumpEqual), (0x2250, .LongName_DotEqual), (0x2260, .LongName_NotEqual),
  (0x2261, .LongName_Congruent), (0x2262, .LongName_NotCongruent), (0x2264, .LongName_LessEqual),
  (0x2265, .LongName_GreaterEqual), (0x2266, .LongName_LessFullEqual),
  (0x2267, .LongName_GreaterFullEqual), (0x2268, .LongName_NotLessFullEqual),
  (0x2269, .LongName_NotGreaterFullEqual), (0x226a, .LongName_LessLess),
  (0x226b, .LongName_GreaterGreater), (0x226d, .LongName_NotCupCap), (0x226e, .LongName_NotLess),
  (0x226f, .LongName_NotGreater), (0x2270, .LongName_NotLessEqual),
  (0x2271, .LongName_NotGreaterEqual), (0x2272, .LongName_LessTilde),
  (0x2273, .LongName_GreaterTilde), (0x2274, .LongName_NotLessTilde),
  (0x2275, .LongName_NotGreaterTilde), (0x2276, .LongName_LessGreater),
  (0x2277, .LongName_GreaterLess), (0x2278, .LongName_NotLessGreater),
  (0x2279, .LongName_NotGreaterLess), (0x227a, .LongName_Precedes), (0x227b, .LongName_Succeeds),
  (0x227c, .LongName_PrecedesSlantEqual), (0x227d, .LongName_SucceedsSlantEqual),
  (0x227e, .LongName_PrecedesTilde), (0x227f, .LongName_SucceedsTilde),
  (0x2280, .LongName_NotPrecedes), (0x2281, .LongName_NotSucceeds), (0x2282, .LongName_Subset),
  (0x2283, .LongName_Superset), (0x2284, .LongName_NotSubset), (0x2285, .LongName_NotSuperset),
  (0x2286, .LongName_SubsetEqual), (0x2287, .LongName_SupersetEqual),
  (0x2288, .LongName_NotSubsetEqual), (0x2289, .LongName_NotSupersetEqual),
  (0x228e, .LongName_UnionPlus), (0x228f, .LongName_SquareSubset),
  (0x2290, .LongName_SquareSuperset), (0x2291, .LongName_SquareSubsetEqual),
  (0x2292, .LongName_SquareSupersetEqual), (0x2293, .LongName_SquareIntersection),
  (0x2294, .LongName_SquareUnion), (0x2295, .LongName_CirclePlus), (0x2296, .LongName_CircleMinus),
  (0x2297, .LongName_CircleTimes), (0x2299, .LongName_CircleDot), (0x22a2, .LongName_RightTee),
  (0x22a3, .LongName_LeftTee), (0x22a4, .LongName_DownTee), (0x22a5, .LongName_UpTee),
  (0x22a8, .LongName_DoubleRightTee), (0x22b2, .LongName_LeftTriangle),
  (0x22b3, .LongName_RightTriangle), (0x22b4, .LongName_LeftTriangleEqual),
  (0x22b5, .LongName_RightTriangleEqual), (0x22bb, .LongName_Xor), (0x22bc, .LongName_Nand),
  (0x22bd, .LongName_Nor), (0x22c0, .LongName_Wedge), (0x22c1, .LongName_Vee),
  (0x22c2, .LongName_Intersection), (0x22c3, .LongName_Union), (0x22c4, .LongName_Diamond),
  (0x22c6, .LongName_Star), (0x22da, .LongName_LessEqualGreater),
  (0x22db, .LongName_GreaterEqualLess), (0x22e0, .LongName_NotPrecedesSlantEqual),
  (0x22e1, .LongName_NotSucceedsSlantEqual), (0x22e2, .LongName_NotSquareSubsetEqual),
  (0x22e3, .LongName_NotSquareSupersetEqual), (0x22e8, .LongName_NotPrecedesTilde),
  (0x22e9, .LongName_NotSucceedsTilde), (0x22ea, .LongName_NotLeftTriangle),
  (0x22eb, .LongName_NotRightTriangle), (0x22ec, .LongName_NotLeftTriangleEqual),
  (0x22ed, .LongName_NotRightTriangleEqual), (0x2308, .LongName_LeftCeiling),
  (0x2309, .LongName_RightCeiling), (0x230a, .LongName_LeftFloor), (0x230b, .LongName_RightFloor),
  (0x2322, .LongName_Cap), (0x2323, .LongName_Cup), (0x2329, .LongName_LeftAngleBracket),
  (0x232a, .LongName_RightAngleBracket), (0x27c2, .LongName_Perpendicular),
  (0x27f5, .LongName_LongLeftArrow), (0x27f6, .LongName_LongRightArrow),
  (0x27f7, .LongName_LongLeftRightArrow), (0x27f8, .LongName_DoubleLongLeftArrow),
  (0x27f9, .LongName_DoubleLongRightArrow), (0x27fa, .LongName_DoubleLongLeftRightArrow),
  (0x2912, .LongName_UpArrowBar), (0x2913, .LongName_DownArrowBar),
  (0x294e, .LongName_LeftRightVector), (0x294f, .LongName_RightUpDownVector),
  (0x2950, .LongName_DownLeftRightVector), (0x2951, .LongName_LeftUpDownVector),
  (0x2952, .LongName_LeftVectorBar), (0x2953, .LongName_RightVectorBar),
  (0x2954, .LongName_RightUpVectorBar), (0x2955, .LongName_RightDownVectorBar),
  (0x2956, .LongName_DownLeftVectorBar), (0x2957, .LongName_DownRightVectorBar),
  (0x2958, .LongName_LeftUpVectorBar), (0x2959, .LongName_LeftDownVectorBar),
  (0x295a, .LongName_LeftTeeVector), (0x295b, .LongName_RightTeeVector),
  (0x295c, .LongName_RightUpTeeVector), (0x295d, .LongName_RightDownTeeVector),
  (0x295e, .LongName_DownLeftTeeVector), (0x295f, .LongName_DownRightTeeVector),
  (0x2960, .LongName_LeftUpTeeVector), (0x2961, .LongName_LeftDownTeeVector),
  (0x296e, .LongName_UpEquilibrium), (0x296f, .LongName_ReverseUpEquilibrium),
  (0x2970, .LongName_RoundImplies), (0x29cf, .LongName_LeftTriangleBar),
  (0x29d0, .LongName_RightTriangleBar), (0x29e6, .LongName_Equivalent),
  (0x2a7d, .LongName_LessSlantEqual), (0x2a7e, .LongName_GreaterSlantEqual),
  (0x2aa1, .LongName_NestedLessLess), (0x2aa2, .LongName_NestedGreaterGreater),
  (0x2aaf, .LongName_PrecedesEqual), (0x2ab0, .LongName_SucceedsEqual),
  (0x2ae4, .LongName_DoubleLeftTee), (0x301a, .LongName_LeftDoubleBracket),
  (0x301b, .LongName_RightDoubleBracket), (0xf113, .LongName_LeftAssociation),
  (0xf114, .LongName_RightAssociation), (0xf120, .LongName_TwoWayRule),
  (0xf361, .LongName_Piecewise), (0xf39e, .LongName_ImplicitPlus),
  (0xf3a8, .LongName_AutoLeftMatch), (0xf3a9, .LongName_AutoRightMatch),
  (0xf3b3, .LongName_InvisiblePrefixScriptBase), (0xf3b4, .LongName_InvisiblePostfixScriptBase),
  (0xf3c7, .LongName_Transpose), (0xf3c8, .LongName_Conjugate),
  (0xf3c9, .LongName_ConjugateTranspose), (0xf3ce, .LongName_HermitianConjugate),
  (0xf3d0, .LongName_VerticalBar), (0xf3d1, .LongName_NotVerticalBar),
  (0xf3d2, .LongName_Distributed), (0xf3d3, .LongName_Conditioned),
  (0xf3d4, .LongName_UndirectedEdge), (0xf3d5, .LongName_DirectedEdge),
  (0xf3d9, .LongName_ContinuedFractionK), (0xf3da, .LongName_TensorProduct),
  (0xf3db, .LongName_TensorWedge), (0xf3dc, .LongName_ProbabilityPr),
  (0xf3dd, .LongName_ExpectationE), (0xf3de, .LongName_PermutationProduct),
  (0xf400, .LongName_NotEqualTilde), (0xf401, .LongName_NotHumpEqual),
  (0xf402, .LongName_NotHumpDownHump), (0xf412, .LongName_NotLeftTriangleBar),
  (0xf413, .LongName_NotRightTriangleBar), (0xf422, .LongName_NotLessLess),
  (0xf423, .LongName_NotNestedLessLess), (0xf424, .LongName_NotLessSlantEqual),
  (0xf427, .LongName_NotGreaterGreater), (0xf428, .LongName_NotNestedGreaterGreater),
  (0xf429, .LongName_NotGreaterSlantEqual), (0xf42b, .LongName_NotPrecedesEqual),
  (0xf42d, .LongName_NotSucceedsEqual), (0xf42e, .LongName_NotSquareSubset),
  (0xf42f, .LongName_NotSquareSuperset), (0xf431, .LongName_Equal),
  (0xf432, .LongName_VerticalSeparator), (0xf434, .LongName_VectorGreater),
  (0xf435, .LongName_VectorGreaterEqual), (0xf436, .LongName_VectorLess),
  (0xf437, .LongName_VectorLessEqual), (0xf438, .LongName_Limit), (0xf439, .LongName_MaxLimit),
  (0xf43a, .LongName_MinLimit), (0xf4a0, .LongName_Cross), (0xf4a1, .LongName_Function),
  (0xf4a2, .LongName_Xnor), (0xf4a3, .LongName_DiscreteShift), (0xf4a4, .LongName_DifferenceDelta),
  (0xf4a5, .LongName_DiscreteRatio), (0xf51f, .LongName_RuleDelayed), (0xf520, .LongName_Square),
  (0xf522, .LongName_Rule), (0xf523, .LongName_Implies), (0xf525, .LongName_ShortRightArrow),
  (0xf526, .LongName_ShortLeftArrow), (0xf52a, .LongName_ShortUpArrow),
  (0xf52b, .LongName_ShortDownArrow), (0xf530, .LongName_Application),
  (0xf603, .LongName_LeftBracketingBar), (0xf604, .LongName_RightBracketingBar),
  (0xf605, .LongName_LeftDoubleBracketingBar), (0xf606, .LongName_RightDoubleBracketingBar),
  (0xf74b, .LongName_CapitalDifferentialD), (0xf74c, .LongName_DifferentialD),
  (0xf765, .LongName_InvisibleComma), (0xf76d, .LongName_InvisibleApplication),
  (0xf7d9, .LongName_LongEqual)]

attribute [irreducible] longNameTable codePointNameTable rawSet mbNotStrangeLetterlikeTable
  mbPunctuationTable mbWhitespaceTable mbUninterpretableTable asciiReplacementKeys longNameOperatorTable

end CodeParser
