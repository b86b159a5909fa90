/- Generated by tools/gen_tables.py from /repo. Do not edit.
Paths are relative to /repo/crates/wolfram-parser/src. -/
namespace CodeParser

set_option maxRecDepth 100000

/-- `ASCII_REPLACEMENTS_MAP`, generated/long_names_registration.rs:3464-4084. -/
def asciiReplacementTable : List (Nat × List (List Char)) := [
  (0xa0, [[' ']]),
  (0xa2, [['c']]),
  (0xa8, [['.', '.']]),
  (0xa9, [['(', 'c', ')']]),
  (0xab, [['<', '<'], ['"']]),
  (0xac, [['!']]),
  (0xad, [['-']]),
  (0xae, [['(', 'R', ')']]),
  (0xb0, [['D', 'e', 'g', 'r', 'e', 'e']]),
  (0xb1, [['+', '-']]),
  (0xb5, [['u']]),
  (0xb7, [['.']]),
  (0xb8, [[',']]),
  (0xbb, [['>', '>'], ['"']]),
  (0xc0, [['A', '`'], ['A']]),
  (0xc1, [['A', '\''], ['A']]),
  (0xc2, [['A', '^'], ['A']]),
  (0xc3, [['A', '~'], ['A']]),
  (0xc4, [['A', '"'], ['A', 'E'], ['A']]),
  (0xc5, [['A', 'o'], ['A']]),
  (0xc6, [['A', 'E']]),
  (0xc7, [['C', ','], ['C']]),
  (0xc8, [['E', '`'], ['E']]),
  (0xc9, [['E', '\''], ['E']]),
  (0xca, [['E', '^'], ['E']]),
  (0xcb, [['E', '"'], ['E']]),
  (0xcc, [['I', '`'], ['I']]),
  (0xcd, [['I', '\''], ['I']]),
  (0xce, [['I', '^'], ['I']]),
  (0xcf, [['I', '"'], ['I']]),
  (0xd0, [['E', 't', 'h']]),
  (0xd1, [['N', '~'], ['N']]),
  (0xd2, [['O', '`'], ['O']]),
  (0xd3, [['O', '\''], ['O']]),
  (0xd4, [['O', '^'], ['O']]),
  (0xd5, [['O', '~'], ['O']]),
  (0xd6, [['O', '"'], ['O', 'E'], ['O']]),
  (0xd7, [['*'], ['x']]),
  (0xd8, [['O', '/'], ['O']]),
  (0xd9, [['U', '`'], ['U']]),
  (0xda, [['U', '\''], ['U']]),
  (0xdb, [['U', '^'], ['U']]),
  (0xdc, [['U', '"'], ['U', 'E'], ['U']]),
  (0xdd, [['Y', '\''], ['Y']]),
  (0xde, [['T', 'h']]),
  (0xdf, [['s', 'z']]),
  (0xe0, [['a', '`'], ['a']]),
  (0xe1, [['a', '\''], ['a']]),
  (0xe2, [['a', '^'], ['a']]),
  (0xe3, [['a', '~'], ['a']]),
  (0xe4, [['a', '"'], ['a', 'e'], ['a']]),
  (0xe5, [['a', 'o'], ['a']]),
  (0xe6, [['a', 'e'], ['a']]),
  (0xe7, [['c', ','], ['c']]),
  (0xe8, [['e', '`'], ['e']]),
  (0xe9, [['e', '\''], ['e']]),
  (0xea, [['e', '^'], ['e']]),
  (0xeb, [['e', '"'], ['e']]),
  (0xec, [['i', '`'], ['i']]),
  (0xed, [['i', '\''], ['i']]),
  (0xee, [['i', '^'], ['i']]),
  (0xef, [['i', '"'], ['i']]),
  (0xf0, [['e', 't', 'h']]),
  (0xf1, [['n', '~'], ['n']]),
  (0xf2, [['o', '`'], ['o']]),
  (0xf3, [['o', '\''], ['o']]),
  (0xf4, [['o', '^'], ['o']]),
  (0xf5, [['o', '~'], ['o']]),
  (0xf6, [['o', '"'], ['o', 'e'], ['o']]),
  (0xf7, [['/']]),
  (0xf8, [['o', '/'], ['o']]),
  (0xf9, [['u', '`'], ['u']]),
  (0xfa, [['u', '\''], ['u']]),
  (0xfb, [['u', '^'], ['u']]),
  (0xfc, [['u', '"'], ['u', 'e'], ['u']]),
  (0xfd, [['y', '\''], ['y']]),
  (0xfe, [['t', 'h']]),
  (0xff, [['y', '"'], ['y']]),
  (0x100, [['A', '-'], ['A']]),
  (0x101, [['a', '-'], ['a']]),
  (0x102, [['A', 'u'], ['A']]),
  (0x103, [['a', 'u'], ['a']]),
  (0x106, [['C', '\''], ['C']]),
  (0x107, [['c', '\''], ['c']]),
  (0x10c, [['C', 'v'], ['C']]),
  (0x10d, [['c', 'v'], ['c']]),
  (0x10e, [['D', 'v'], ['D']]),
  (0x10f, [['d', 'v'], ['d']]),
  (0x112, [['E', '-'], ['E']]),
  (0x113, [['e', '-'], ['e']]),
  (0x114, [['E', 'u'], ['E']]),
  (0x115, [['e', 'u'], ['e']]),
  (0x11a, [['E', 'v'], ['E']]),
  (0x11b, [['e', 'v'], ['e']]),
  (0x12c, [['I', 'u'], ['I']]),
  (0x12d, [['i', 'u'], ['i']]),
  (0x131, [['i']]),
  (0x141, [['L', '/'], ['L']]),
  (0x142, [['l', '/'], ['l']]),
  (0x147, [['N', 'v'], ['N']]),
  (0x148, [['n', 'v'], ['n']]),
  (0x150, [['O', '\'', '\''], ['O']]),
  (0x151, [['o', '\'', '\''], ['o']]),
  (0x152, [['O', 'E']]),
  (0x153, [['o', 'e']]),
  (0x158, [['R', 'v'], ['R']]),
  (0x159, [['r', 'v'], ['r']]),
  (0x160, [['S', 'v'], ['S']]),
  (0x161, [['s', 'v'], ['s']]),
  (0x164, [['T', 'v'], ['T']]),
  (0x165, [['t', 'v'], ['t']]),
  (0x16e, [['U', 'o'], ['U']]),
  (0x16f, [['u', 'o'], ['u']]),
  (0x170, [['U', '\'', '\''], ['U']]),
  (0x171, [['u', '\'', '\''], ['u']]),
  (0x17d, [['Z', 'v'], ['Z']]),
  (0x17e, [['z', 'v'], ['z']]),
  (0x192, [['f']]),
  (0x2c7, [['v']]),
  (0x3bc, [['u']]),
  (0x2005, [[' ']]),
  (0x2009, [[' ']]),
  (0x200a, [[' ']]),
  (0x2010, [['-']]),
  (0x2013, [['-']]),
  (0x2014, [['-', '-'], ['-']]),
  (0x2018, [['\'']]),
  (0x2019, [['\'']]),
  (0x201c, [['"']]),
  (0x201d, [['"']]),
  (0x2026, [['.', '.', '.']]),
  (0x2028, [['\n']]),
  (0x2029, [['\n', '\n']]),
  (0x2032, [['\'']]),
  (0x2033, [['\'', '\''], ['"']]),
  (0x2035, [['`']]),
  (0x2036, [['`', '`'], ['"']]),
  (0x2043, [['-']]),
  (0x205f, [[' ']]),
  (0x2062, [['*'], ['x'], []]),
  (0x210a, [['g']]),
  (0x210b, [['H']]),
  (0x210c, [['H']]),
  (0x210f, [['h']]),
  (0x2110, [['I']]),
  (0x2111, [['I']]),
  (0x2112, [['L']]),
  (0x2113, [['l']]),
  (0x2118, [['p']]),
  (0x211b, [['R']]),
  (0x211c, [['R']]),
  (0x2122, [['(', 'T', 'M', ')']]),
  (0x2128, [['Z']]),
  (0x212b, [['A']]),
  (0x212c, [['B']]),
  (0x212d, [['C']]),
  (0x212f, [['e']]),
  (0x2130, [['E']]),
  (0x2131, [['F']]),
  (0x2133, [['M']]),
  (0x2134, [['o']]),
  (0x2190, [['<', '-']]),
  (0x2192, [['-', '>']]),
  (0x2194, [['<', '-', '>']]),
  (0x21a4, [['<', '-', '|']]),
  (0x21a6, [['|', '-', '>']]),
  (0x21d0, [['<', '=']]),
  (0x21d2, [['=', '>']]),
  (0x21d4, [['<', '=', '>']]),
  (0x21e4, [['|', '<', '-']]),
  (0x21e5, [['-', '>', '|']]),
  (0x2212, [['-']]),
  (0x2213, [['-', '+']]),
  (0x2215, [['/']]),
  (0x2216, [['\\']]),
  (0x2218, [['(', ')']]),
  (0x221e, [['I', 'n', 'f', 'i', 'n', 'i', 't', 'y']]),
  (0x2223, [['|']]),
  (0x2225, [['|', '|']]),
  (0x2226, [['!', '|', '|']]),
  (0x2227, [['&', '&']]),
  (0x2228, [['|', '|']]),
  (0x2236, [[':']]),
  (0x223c, [['~']]),
  (0x2241, [['!', '~']]),
  (0x2242, [['=', '~']]),
  (0x2243, [['~', '=']]),
  (0x2244, [['!', '~', '=']]),
  (0x2245, [['~', '=', '=']]),
  (0x2247, [['!', '~', '=', '=']]),
  (0x2248, [['~', '~']]),
  (0x2249, [['!', '~', '~']]),
  (0x2260, [['!', '=']]),
  (0x2264, [['<', '=']]),
  (0x2265, [['>', '=']]),
  (0x2266, [['<', '=']]),
  (0x2267, [['>', '=']]),
  (0x2268, [['!', '<', '=', '=']]),
  (0x2269, [['!', '>', '=', '=']]),
  (0x226a, [['<', '<']]),
  (0x226b, [['>', '>']]),
  (0x226e, [['!', '<']]),
  (0x226f, [['!', '>']]),
  (0x2270, [['!', '<', '=']]),
  (0x2271, [['!', '>', '=']]),
  (0x2272, [['<', '~']]),
  (0x2273, [['>', '~']]),
  (0x2274, [['!', '<', '~']]),
  (0x2275, [['!', '>', '~']]),
  (0x2276, [['<', '>']]),
  (0x2277, [['>', '<']]),
  (0x2278, [['!', '<', '>']]),
  (0x2279, [['!', '>', '<']]),
  (0x2295, [['(', '+', ')']]),
  (0x2296, [['(', '-', ')']]),
  (0x2297, [['(', 'x', ')']]),
  (0x2299, [['(', '.', ')']]),
  (0x22a2, [['|', '-']]),
  (0x22a3, [['-', '|']]),
  (0x22a8, [['|', '=']]),
  (0x22b2, [['<', '|']]),
  (0x22b3, [['|', '>']]),
  (0x22b4, [['<', '|', '=']]),
  (0x22b5, [['|', '>', '=']]),
  (0x22c0, [['^']]),
  (0x22c4, [['<', '>']]),
  (0x22c6, [['*']]),
  (0x22da, [['<', '=', '>']]),
  (0x22db, [['>', '=', '<']]),
  (0x22ea, [['!', '<', '|']]),
  (0x22eb, [['!', '|', '>']]),
  (0x22ec, [['!', '<', '|', '=']]),
  (0x22ed, [['!', '|', '>', '=']]),
  (0x22ef, [['.', '.', '.']]),
  (0x2329, [['<']]),
  (0x232a, [['>']]),
  (0x2423, [[' '], ['_']]),
  (0x2639, [[':', '-', '(']]),
  (0x263a, [[':', '-', ')']]),
  (0x266f, [['#']]),
  (0x27f5, [['<', '-', '-']]),
  (0x27f6, [['-', '-', '>']]),
  (0x27f7, [['<', '-', '-', '>']]),
  (0x27f8, [['<', '=', '=']]),
  (0x27f9, [['=', '=', '>']]),
  (0x27fa, [['<', '=', '=', '>']]),
  (0x29cf, [['<', '|', '|']]),
  (0x29d0, [['|', '|', '>']]),
  (0x29e6, [['<', '=', '>']]),
  (0x2a7d, [['<', '=']]),
  (0x2a7e, [['>', '=']]),
  (0x2aa1, [['<', '<']]),
  (0x2aa2, [['>', '>']]),
  (0x2ae4, [['=', '|']]),
  (0x301a, [['[', '[']]),
  (0x301b, [[']', ']']]),
  (0xf113, [['<', '|']]),
  (0xf114, [['|', '>']]),
  (0xf120, [['<', '-', '>']]),
  (0xf360, [[' '], []]),
  (0xf380, [[' ']]),
  (0xf382, [[' ']]),
  (0xf383, [[' ']]),
  (0xf384, [[' ']]),
  (0xf39e, [['+']]),
  (0xf3a0, [[]]),
  (0xf3a3, [['\n']]),
  (0xf3b1, [['\\']]),
  (0xf3b2, [['_']]),
  (0xf3b3, [[]]),
  (0xf3b4, [[]]),
  (0xf3bd, [['\n']]),
  (0xf3be, [['\n']]),
  (0xf3bf, [['\n']]),
  (0xf3c6, [['\n']]),
  (0xf3c7, [['T']]),
  (0xf3c8, [['*']]),
  (0xf3c9, [['t']]),
  (0xf3ce, [['H']]),
  (0xf3d0, [['|']]),
  (0xf3d1, [['!', '|']]),
  (0xf3d5, [['-', '>']]),
  (0xf3d9, [['K']]),
  (0xf400, [['!', '=', '~']]),
  (0xf412, [['!', '<', '|', '|']]),
  (0xf413, [['!', '|', '|', '>']]),
  (0xf422, [['!', '<', '<']]),
  (0xf423, [['!', '<', '<']]),
  (0xf424, [['!', '<', '=']]),
  (0xf427, [['!', '>', '>']]),
  (0xf428, [['!', '>', '>']]),
  (0xf429, [['!', '>', '=']]),
  (0xf431, [['=', '=']]),
  (0xf432, [['|']]),
  (0xf4a0, [['x']]),
  (0xf4a1, [['|', '-', '>']]),
  (0xf51f, [[':', '>']]),
  (0xf520, [['[', ']']]),
  (0xf522, [['-', '>']]),
  (0xf523, [['=', '>']]),
  (0xf525, [['-', '>']]),
  (0xf526, [['<', '-']]),
  (0xf527, [['[', '*', ']']]),
  (0xf528, [['[', ' ', ']']]),
  (0xf603, [['|']]),
  (0xf604, [['|']]),
  (0xf605, [['|', '|']]),
  (0xf606, [['|', '|']]),
  (0xf6b2, [['a']]),
  (0xf6b3, [['b']]),
  (0xf6b4, [['c']]),
  (0xf6b5, [['d']]),
  (0xf6b7, [['f']]),
  (0xf6b9, [['h']]),
  (0xf6ba, [['i']]),
  (0xf6bb, [['j']]),
  (0xf6bc, [['k']]),
  (0xf6be, [['m']]),
  (0xf6bf, [['n']]),
  (0xf6c1, [['p']]),
  (0xf6c2, [['q']]),
  (0xf6c3, [['r']]),
  (0xf6c4, [['s']]),
  (0xf6c5, [['t']]),
  (0xf6c6, [['u']]),
  (0xf6c7, [['v']]),
  (0xf6c8, [['w']]),
  (0xf6c9, [['x']]),
  (0xf6ca, [['y']]),
  (0xf6cb, [['z']]),
  (0xf6cc, [['a']]),
  (0xf6cd, [['b']]),
  (0xf6ce, [['c']]),
  (0xf6cf, [['d']]),
  (0xf6d0, [['e']]),
  (0xf6d1, [['f']]),
  (0xf6d2, [['g']]),
  (0xf6d3, [['h']]),
  (0xf6d4, [['i']]),
  (0xf6d5, [['j']]),
  (0xf6d6, [['k']]),
  (0xf6d7, [['l']]),
  (0xf6d8, [['m']]),
  (0xf6d9, [['n']]),
  (0xf6da, [['o']]),
  (0xf6db, [['p']]),
  (0xf6dc, [['q']]),
  (0xf6dd, [['R']]),
  (0xf6de, [['s']]),
  (0xf6df, [['t']]),
  (0xf6e0, [['u']]),
  (0xf6e1, [['v']]),
  (0xf6e2, [['w']]),
  (0xf6e3, [['x']]),
  (0xf6e4, [['y']]),
  (0xf6e5, [['z']]),
  (0xf6e6, [['a']]),
  (0xf6e7, [['b']]),
  (0xf6e8, [['c']]),
  (0xf6e9, [['d']]),
  (0xf6ea, [['e']]),
  (0xf6eb, [['f']]),
  (0xf6ec, [['g']]),
  (0xf6ed, [['h']]),
  (0xf6ee, [['i']]),
  (0xf6ef, [['j']]),
  (0xf6f0, [['k']]),
  (0xf6f1, [['l']]),
  (0xf6f2, [['m']]),
  (0xf6f3, [['n']]),
  (0xf6f4, [['o']]),
  (0xf6f5, [['p']]),
  (0xf6f6, [['q']]),
  (0xf6f7, [['r']]),
  (0xf6f8, [['s']]),
  (0xf6f9, [['t']]),
  (0xf6fa, [['u']]),
  (0xf6fb, [['v']]),
  (0xf6fc, [['w']]),
  (0xf6fd, [['x']]),
  (0xf6fe, [['y']]),
  (0xf6ff, [['z']]),
  (0xf700, [['j']]),
  (0xf721, [[':', '-', '@']]),
  (0xf722, [[':', '-', '|']]),
  (0xf724, [['#']]),
  (0xf730, [['i']]),
  (0xf731, [['j']]),
  (0xf74b, [['D']]),
  (0xf74c, [['d']]),
  (0xf74d, [['e']]),
  (0xf74e, [['i']]),
  (0xf74f, [['j']]),
  (0xf754, [['_']]),
  (0xf758, [['.', '.', '.']]),
  (0xf761, [['<', '<']]),
  (0xf762, [['>', '>']]),
  (0xf763, [['C', 'T', 'R', 'L']]),
  (0xf765, [[','], []]),
  (0xf766, [['R', 'E', 'T']]),
  (0xf767, [['^', '^', '^']]),
  (0xf769, [['E', 'S', 'C']]),
  (0xf76a, [['C', 'M', 'D']]),
  (0xf76b, [['-', '[']]),
  (0xf76c, [[']']]),
  (0xf76d, [['@'], []]),
  (0xf76e, [['\n']]),
  (0xf76f, [['\n', '\n']]),
  (0xf770, [['A']]),
  (0xf772, [['C']]),
  (0xf773, [['D']]),
  (0xf776, [['G']]),
  (0xf779, [['J']]),
  (0xf77a, [['K']]),
  (0xf77d, [['N']]),
  (0xf77e, [['O']]),
  (0xf77f, [['P']]),
  (0xf780, [['Q']]),
  (0xf782, [['S']]),
  (0xf783, [['T']]),
  (0xf784, [['U']]),
  (0xf785, [['V']]),
  (0xf786, [['W']]),
  (0xf787, [['X']]),
  (0xf788, [['Y']]),
  (0xf789, [['Z']]),
  (0xf78a, [['A']]),
  (0xf78b, [['B']]),
  (0xf78d, [['D']]),
  (0xf78e, [['E']]),
  (0xf78f, [['F']]),
  (0xf790, [['G']]),
  (0xf793, [['J']]),
  (0xf794, [['K']]),
  (0xf795, [['L']]),
  (0xf796, [['M']]),
  (0xf797, [['N']]),
  (0xf798, [['O']]),
  (0xf799, [['P']]),
  (0xf79a, [['Q']]),
  (0xf79c, [['S']]),
  (0xf79d, [['T']]),
  (0xf79e, [['U']]),
  (0xf79f, [['V']]),
  (0xf7a0, [['W']]),
  (0xf7a1, [['X']]),
  (0xf7a2, [['Y']]),
  (0xf7a4, [['A']]),
  (0xf7a5, [['B']]),
  (0xf7a6, [['C']]),
  (0xf7a7, [['D']]),
  (0xf7a8, [['E']]),
  (0xf7a9, [['F']]),
  (0xf7aa, [['G']]),
  (0xf7ab, [['H']]),
  (0xf7ac, [['I']]),
  (0xf7ad, [['J']]),
  (0xf7ae, [['K']]),
  (0xf7af, [['L']]),
  (0xf7b0, [['M']]),
  (0xf7b1, [['N']]),
  (0xf7b2, [['O']]),
  (0xf7b3, [['P']]),
  (0xf7b4, [['Q']]),
  (0xf7b5, [['R']]),
  (0xf7b6, [['S']]),
  (0xf7b7, [['T']]),
  (0xf7b8, [['U']]),
  (0xf7b9, [['V']]),
  (0xf7ba, [['W']]),
  (0xf7bb, [['X']]),
  (0xf7bc, [['Y']]),
  (0xf7bd, [['Z']]),
  (0xf7be, [['T', 'A', 'B']]),
  (0xf7bf, [['S', 'P', 'C']]),
  (0xf7d0, [['D', 'E', 'L']]),
  (0xf7d1, [['A', 'L', 'T']]),
  (0xf7d2, [['O', 'P', 'T']]),
  (0xf7d9, [['=', '=']]),
  (0xf7da, [['c']]),
  (0xf7db, [['0']]),
  (0xf7dc, [['1']]),
  (0xf7dd, [['2']]),
  (0xf7de, [['3']]),
  (0xf7df, [['4']]),
  (0xf7e0, [['5']]),
  (0xf7e1, [['6']]),
  (0xf7e2, [['7']]),
  (0xf7e3, [['8']]),
  (0xf7e4, [['9']]),
  (0xf7e5, [['0']]),
  (0xf7e6, [['1']]),
  (0xf7e7, [['2']]),
  (0xf7e8, [['3']]),
  (0xf7e9, [['4']]),
  (0xf7ea, [['5']]),
  (0xf7eb, [['6']]),
  (0xf7ec, [['7']]),
  (0xf7ed, [['8']]),
  (0xf7ef, [['9']]),
  (0xf7f0, [['0']]),
  (0xf7f1, [['1']]),
  (0xf7f2, [['2']]),
  (0xf7f3, [['3']]),
  (0xf7f4, [['4']]),
  (0xf7f5, [['5']]),
  (0xf7f6, [['6']]),
  (0xf7f7, [['7']]),
  (0xf7f8, [['8']]),
  (0xf7f9, [['9']]),
  (0xf7fc, [[',']]),
  (0xf800, [['a']]),
  (0xf801, [['b']]),
  (0xf802, [['c']]),
  (0xf803, [['d']]),
  (0xf804, [['e']]),
  (0xf805, [['f']]),
  (0xf806, [['g']]),
  (0xf807, [['h']]),
  (0xf808, [['i']]),
  (0xf809, [['j']]),
  (0xf80a, [['k']]),
  (0xf80b, [['l']]),
  (0xf80c, [['m']]),
  (0xf80d, [['n']]),
  (0xf80e, [['o']]),
  (0xf80f, [['p']]),
  (0xf810, [['q']]),
  (0xf811, [['r']]),
  (0xf812, [['s']]),
  (0xf813, [['t']]),
  (0xf814, [['u']]),
  (0xf815, [['v']]),
  (0xf816, [['w']]),
  (0xf817, [['x']]),
  (0xf818, [['y']]),
  (0xf819, [['z']]),
  (0xf81a, [['A']]),
  (0xf81b, [['B']]),
  (0xf81c, [['C']]),
  (0xf81d, [['D']]),
  (0xf81e, [['E']]),
  (0xf81f, [['F']]),
  (0xf820, [['G']]),
  (0xf821, [['H']]),
  (0xf822, [['I']]),
  (0xf823, [['J']]),
  (0xf824, [['K']]),
  (0xf825, [['L']]),
  (0xf826, [['M']]),
  (0xf827, [['N']]),
  (0xf828, [['O']]),
  (0xf829, [['P']]),
  (0xf82a, [['Q']]),
  (0xf82b, [['R']]),
  (0xf82c, [['S']]),
  (0xf82d, [['T']]),
  (0xf82e, [['U']]),
  (0xf82f, [['V']]),
  (0xf830, [['W']]),
  (0xf831, [['X']]),
  (0xf832, [['Y']]),
  (0xf833, [['Z']]),
  (0xfb01, [['f', 'i']]),
  (0xfb02, [['f', 'l']]),
  (0xfffd, [['?']]),
  (0xfa000, [['a']]),
  (0xfa001, [['b']]),
  (0xfa002, [['c']]),
  (0xfa003, [['d']]),
  (0xfa004, [['e']]),
  (0xfa005, [['f']]),
  (0xfa006, [['g']]),
  (0xfa007, [['h']]),
  (0xfa008, [['i']]),
  (0xfa009, [['j']]),
  (0xfa00a, [['k']]),
  (0xfa00b, [['l']]),
  (0xfa00c, [['m']]),
  (0xfa00d, [['n']]),
  (0xfa00e, [['o']]),
  (0xfa00f, [['p']]),
  (0xfa010, [['q']]),
  (0xfa011, [['r']]),
  (0xfa012, [['s']]),
  (0xfa013, [['t']]),
  (0xfa014, [['u']]),
  (0xfa015, [['v']]),
  (0xfa016, [['w']]),
  (0xfa017, [['x']]),
  (0xfa018, [['y']]),
  (0xfa019, [['z']]),
  (0xfa01a, [['A']]),
  (0xfa01b, [['B']]),
  (0xfa01c, [['C']]),
  (0xfa01d, [['D']]),
  (0xfa01e, [['E']]),
  (0xfa01f, [['F']]),
  (0xfa020, [['G']]),
  (0xfa021, [['H']]),
  (0xfa022, [['I']]),
  (0xfa023, [['J']]),
  (0xfa024, [['K']]),
  (0xfa025, [['L']]),
  (0xfa026, [['M']]),
  (0xfa027, [['N']]),
  (0xfa028, [['O']]),
  (0xfa029, [['P']]),
  (0xfa02a, [['Q']]),
  (0xfa02b, [['R']]),
  (0xfa02c, [['S']]),
  (0xfa02d, [['T']]),
  (0xfa02e, [['U']]),
  (0xfa02f, [['V']]),
  (0xfa030, [['W']]),
  (0xfa031, [['X']]),
  (0xfa032, [['Y']]),
  (0xfa033, [['Z']])]

attribute [irreducible] asciiReplacementTable

end CodeParser
