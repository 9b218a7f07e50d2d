import Verif.Braun
/-
GENERATED by tools/gen_lean.py from the text of /repo/pycep/bicep.lark. Do not edit.

LALR(1) table of the compiled grammar (621 states, 344 rules), with Lark's conflict policy: a shift
wins over a reduction; there are no unresolved reduce/reduce conflicts (554 shift/reduce ones).

Both tables have one row per state; a row is a natural number made of 10-bit cells:
* action cell number `terminal`; value 0 = error, `1 + s` = shift and go to state `s`,
  `622 + r` = reduce by rule `r`;
* goto cell number `nonterminal - 128`; value 0 = none, `1 + s` = go to state `s`.
-/
namespace Pycep
def numStates : Nat := 621
def numTerms : Nat := 69
def numNts : Nat := 76
def numRules : Nat := 344
/-- state reached from the initial state 0 on `start` -/
def endState : Nat := 1
/-- action rows -/
def actionRows : Bt Nat :=
  (.n (.n (.n (.n (.n (.n (.n (.n (.n (.n .l
  0xe6c0000000000000000000000000000039b00000000000000000000000000000000000000000000000000000000000000000000000000000000000000000000000000000000000000000000000000000
  .l)
  0x2b600000000000000000000000000000000000000000000000000ad80000000000000000000000000000000000000ad800002b600000ad800ad800002b6adab6adab6002b6ad800000000000000000ad8000000000000
  .l)
  0x35dd775dd775dd775dd775dd775dd775dd775dd7400d775dd775dd7400d775dd775dd775dd775dd775dd740000000d74000035dd775dd7400d7400d775dd775dd775d0035dd7400d775d000000035dd775dd775dd7400
  (.n .l
  0x2fb6ec0000000000000000000000002fb00000000000000000000000000000000000000000000000000000000000000000000000000000000bec0000000000000000000000002fbbeefb002fb00000
  .l)) 0x4c00000 (.n (.n (.n .l
  0x2e40000000000002e4b900000000000000000000000002e400000b900000000000000000000000000000000000000b9000002e400000b9000b9000002e4b92e4b92e4002e4b90000000000000002e4b92e4002e400000
  .l)
  0x369da4e134769da76937cdc350e2360ddda4cfda40034b69da769da400364d7378d3380db368d5358d03380000000da40000369da769da400da400da769da769da76900369da400da7690000000369da769da769da400
  .l)
  0x1270000000000000000000000000000000000000000000000000000000000000000000000000000000000000000000000000000000000000000000000000000000000
  (.n .l
  0x7a4000000000000000000000000000001e800000000000000000000000000000000000000000000000000000000000000000000000000000000000000000000000000000000000000000000000000000
  .l)))
  0x275000000000000000000000000000000000000000000000000009d400000000000000000000000000000000000399d4000ea75000009d4009d400002759d6759d675002759d4000000000000000009d4000000000000
  (.n (.n (.n (.n .l
  0x2dd0000000000002ddb740000000000000000000000002dd00000b740000000000000000000000000000000000000b7400002dd00000b7400b7400002ddb76ddb76dd002ddb74000000000000002ddb76dd002dd00000
  .l) 0x5fc0000000000000000000000000b9000b8000ba00000 .l)
  0x10300000168000000000000000000000000000000000000000000000004140000000000000000000000000000000000000000000000000000000000000000000410000000000000
  (.n .l
  0x74c0000000000000000000000000000000000000000000000000000000000000000000000000000000000000000000000000000000000000000000000000000000000000000000000000000000000000
  .l))
  0x30000000000000000000000bf0000000000000000000000000000000000000000000000000000000000000000000000000000000000000000000000000000000000000000000000000000000000
  (.n (.n (.n .l
  0xd300000000000000000000000000000000000000d30000034c00000d3000d30000034cd3000d30000000000000000000000000000000000000000000
  .l)
  0x270a41c00016800000000009b000000000000000000000000000000000000000000000000001d07300000000001d400000000000000000000001d8720000000000698771e4781fc00
  .l)
  0x270a41c00016800000000009b000000000000000000000000000000000000000000000000001d07300000000001d400000000000000000000001d8720000000000000771e4781fc00
  (.n .l
  0xd180000000000000000000000000000000000000d18000034600000d1800d180000346d1800d18000000000000000000000000000818000000000000
  .l)))) 0x2e0000000000 (.n (.n (.n (.n (.n .l
  0xe134400f100037cdc350e2360dd000cf0000034bc40000000000364d7378d3380db368d5358d0338000000000000000000000000000000000000000000000000000000000000000000000000000000000000000
  .l)
  0xc840000000000000000000000000000000000000c84000032100000c8400c840000321c8400c840000000000000000000000000005cc000000000000
  .l)
  0x375dd775dd775dd775dd775dd775dd775dd775dd400dd775dd775dd400dd775dd775dd775dd775dd775dd40000000dd40000375dd775dd400dd400dd775dd775dd77500375dd400dd7750000000375dd775dd775dd400
  (.n .l
  0x71800000000000000000000000000000000000000000000000000000000000000000000000000000000000000000000000000000000000000000000000000
  .l))
  0x2980000000000000000000000000000000000000000000000000000000000000000000000000000000000000000000000000000000000000000000000000000000000000000000000000a50000000000
  (.n (.n (.n .l
  0xc140000000000000000000000000000000000000c14000030500000c1400c140000305c1400c1400000000000000000000000000095c000000000000
  .l) 0x1950000000000 .l)
  0x270a41c00016800000000009b000000000000000000000000000000000000000000000000001d07300000000001d400000000000000000000001d8720000000000000771e4781fc00
  (.n .l
  0x7f00000000000000000000000000000000000000000000000000000000000000000000000000000000000000000000000000000000000000000000000000000000000000000000000000000000000000
  .l)))
  0x14000000000000000000000000000000000000000000000000000000000000000000000000000000000000000000000000000000000000000000000000000000000000000000
  (.n (.n (.n (.n .l
  0xcc00000000000000000000000000000000000000cc0000033000000cc000cc00000330cc000cc0000000000000000000000000000924000000000000
  .l)
  0xe880000000e880000000000000000000000000000000000000000000000000000000000000000000000000000000000000000000000000000000000000000000000000000000000000000000000000000000000000
  .l)
  0x11d000000000000000000000000000000000000000000000000000000000000000000000000000000000000000000000000000000000000002d80000000000000000000000000b946cb8000ba00000
  (.n .l
  0x11c00000000000000000000000000000000000000000000000000000000000000000000000000000000000000000000000000000000000000000000000000000450000000000
  .l))
  0x270a41c00016800000000009b000000000000000000000000000000000000000000000000001d07300000000001d400000000000000000000001d8720000000000000771e4781fc00
  (.n (.n .l
  0xc580000000000000000000000000000000000000c58000031600000c5800c580000316c5800c580000000000000000000000000006c8000000000000
  .l)
  0x297a5e97a5e97a5e97a5e97a5e97a5e97a5e97a5c00a5e97a5e97a5c00a5e97a5e97a5e97a5e97a5e97a5c0000000a5c0000297a5e97a5c00a5c00a5e97a5e97a5e9700297a5c00a5e970000000297a5e97a5e97a5c00
  (.n .l
  0x270a41c00016800000000009b000000000000000000000000000000000000000000000000001d07300000000001d400000000000000000000001d8720000000000000771e4781fc00
  .l))))) 0x200000000000 (.n (.n (.n (.n (.n (.n .l
  0xcbc0000000000000000000000000000000000000cbc000032f00000cbc00cbc000032fcbc00cbc0000000000000000000000000008c0000000000000
  .l)
  0x2ba00000000000000000000000000000000000000000000000000ae80000000000000000000000000000000000000ae800002ba00000ae800ae800002baaeabaaeaba002baae800000000000000000ae8000000000000
  .l)
  0x365d9765d9765d9765d9765d9765d9765d9765d9400d9765d9765d9400d9765d9765d9765d9765d9765d940000000d940000365d9765d9400d9400d9765d9765d976500365d9400d97650000000365d9765d9765d9400
  (.n .l
  0xf0c000000000000270a41c00016800001c10009b000000000000000000000000000000000000000000000000001d07300000000001d400000000000000000000001d8720000000000000771e4781fc00
  .l))
  0x1ac000000000000000000006a0000000000000000000000000000000000000000000000000000000000000000000000000000000000000000000000000000000000000000000000000000000000
  (.n (.n (.n .l
  0xcf40000000000000000000000000000000000000cf4000033d00000cf400cf4000033dcf400cf400000000000000000000000000094c000000000000
  .l)
  0x385e14e134785e178537cdc350e2360dde14cfe140034b85e1785e1400364d7378d3380db368d5358d03380000000e140000385e1785e1400e1400e1785e1785e178500385e1400e17850000000385e1785e1785e1400
  .l)
  0x3a1e840000000e8400e840000000003a100000003a1003a100000e84000000000000000000000000000e840000000e8400003a100000e8400e8400003a1e87a1e87a1003a1e8400000000000000000e84000000000000
  (.n .l
  0xe1345f30000037cdc350e27c1f21c0cf16800348000009b00000364d7378d3380db368d5358d0338000000000000000001d07300000000001d400000000000000000000001d87200000000007c4771e4781fc00
  .l))) 0x300000000000 (.n (.n (.n (.n .l
  0x2eb000e1344000000037cdc350e2360dd000cf000003480000000bac00364d7378d3380db368d5358d03380000000bac00002eb00000bac00bac00002ebbaeebbaeeb002ebbac00000000000000000bac000000000000
  .l)
  0x270711c00016800000000009b000000000000000000000000000000000000000000000000001d07300000000001d400000000000000000000001d8720000000000000771e4781fc00
  .l)
  0xd080000000000000000000000000000000000000d08000034200000d0800d080000342d0800d08000000000000000000000000000444000000000000
  (.n .l
  0x35ad6b5ad6b5ad6b5ad6b5ad6b5ad6b5ad6b5ad6800d6b5ad6b5ad6800d6b5ad6b5ad6b5ad6b5ad6b5ad680000000d68000035ad6b5ad6800d6800d6b5ad6b5ad6b5a0035ad6800d6b5a000000035ad6b5ad6b5ad6800
  .l))
  0xc90000000000000000000000000000000000000000000000000000000000000000000000000000000000000000000000000000000000000000000000000000000000000000000000000000000000000000
  (.n (.n (.n .l
  0xcd40000000000000000000000000000000000000cd4000033500000cd400cd40000335cd400cd40000000000000000000000000009b0000000000000
  .l)
  0x6a800000000000000000000000000000000000000000000000000000000000000000000000000000000000000000000000000000000000000000000000000000000000000000
  .l)
  0x54000000000000000000000000000000000000000000000000000000000000000000000000000000000000000000000000000000000000000000000000000001510000000000
  (.n .l
  0x270a41c00016800000000009b000000000000000000000000000000000000000000000000001d07300000000001d400000000000000000000001d8720000000000000771e4781fc00
  .l))))
  0x39200000000000000000000000000000000000000000000000000e480000000000000000000000000000000000000e48000039200000e4800e480000392e4b92e4b9200392e4800000000000000000e48000000000000
  (.n (.n (.n (.n (.n .l
  0xe13463b0000037cdc350e2360dd000cf00000348000000000000364d7378d3380db368d5358d03380000000000000000000000000000000000000000000000000000000000000000000000008f0000000000000
  .l)
  0x2f6bdaf6bdaf6bdaf6bdaf6bdaf6bdaf6bdaf6bd800bdaf6bdaf6bd800bdaf6bdaf6bdaf6bdaf6bdaf6bd800002f6bd800002f6bdaf6bd800bd800bdaf6bdaf6bdaf6002f6bd800bdaf600000002f6bdaf6bdaf6bd800
  .l)
  0x388e2388e2388e2388e2388e2388e2388e2388e2000e2388e2388e2000e2388e2388e2388e2388e2388e200000000e200000388e2388e2000e2000e2388e2388e238800388e2000e23880000000388e2388e2388e2000
  (.n .l
  0x3ab000000000000000eafabeac00eac000019b003ab00000000000000000000000000000000000000000000000000eafab0000000000eac0000000000000000000000eafab00000000002d3abeafabeac00
  .l))
  0x274000000000000000000000000000000000000000000000000009d000000000000000000000000000000000000009d00000274000009d0009d000002749d2749d274002749d0000000000000000009d0000000000000
  (.n (.n (.n .l
  0xca40000000000000000000000000000000000000ca4000032900000ca400ca40000329ca400ca400000000000000000000000000097c000000000000
  .l)
  0x270a41c00016800000000009b000000000000000000000000000000000000000000000000001d07300000000001d400000000000000000000001d8720000000000000771e4781fc00
  .l)
  0x270a41c00016800000000009b000000000000000000000000000000000000000000000000001d07300000000001d400000000000000000000001d8720000000000000771e4781fc00
  (.n .l
  0x7fc000000000000000000000000000000000000000000000000000000000000000000000000000000000000000
  .l))) 0x570000000000 (.n (.n (.n (.n .l
  0x24b0000000000000000000000000000000000000000000000000000000000000000000000000000000000000000000000000000000000000000000000000000000000000000000000000000000000000000
  .l)
  0x270a41c00016800000000009b000000000000000000000000000000000000000000000000001d07300000000001d400000000000000000000001d8720000000000000771e4781fc00
  .l)
  0xbb400000000000000000000000000000000000000000000000000000000000000000000000000000000000000000000000000000000000000000000000000
  (.n .l
  0xcb40000000000000000000000000000000000000cb4000032d00000cb400cb4000032dcb400cb4000000000000000000000000000788000000000000
  .l))
  0x29ea7a9ea7a9ea7a9ea7a9ea7a9ea7a9ea7a9ea7800a7a9ea7a9ea7800a7a9ea7a9ea7a9ea7a9ea7a9ea780000000a78000029ea7a9ea7800a7800a7a9ea7a9ea7a9e0029ea7800a7a9e000000029ea7a9ea7a9ea7800
  (.n (.n .l
  0x3b700000000000000000000000000017c00000000000000000000000000000000000000000000000000000000000000000000000000000000edc0000000000000000000000003b72d3b7003b700000
  .l)
  0x378de0e134778de37837cdc350e2360ddde0cfde00034b78de378de000364d7378d3380db368d5358d03380000000de00000378de378de000de000de378de378de37800378de000de3780000000378de378de378de000
  (.n .l
  0xe1346240000037cdc350e2360dd000cf00000348000000000000364d7378d3380db368d5358d033800000000000000000000000000000000000000000000000000000000000000000000000088c000000000000
  .l))))))
  0x39300000000000000000000000000000000000000000000000000e4c0000000000000000000000000000000000000e4c000039300000e4c00e4c0000393e4f93e4f9300393e4c00000000000000000060000000000000
  (.n (.n (.n (.n (.n (.n (.n .l
  0xc080000000000000000000000000000000000000c08000030200000c0800c080000302c0800c080000000000000000000000000008b0000000000000
  .l) 0x5a00000000000000000000000000000000000000000000000000000000000000000000000000000000000 .l)
  0x361d8761d8761d8761d8761d8761d8761d8761d8400d8761d8761d8400d8761d8761d8761d8761d8761d840000000d840000361d8761d8400d8400d8761d8761d876100361d8400d87610000000361d8761d8761d8400
  (.n .l
  0x27f000000000000000000000000000000000000000000000000009fc00000000000000000000000000000000000009fc000027f000009fc009fc000027f9fe7f9fe7f0027f9fc000000000000000009fc000000000000
  .l))
  0x2c5b140000000b1400b1400000000006800000002c5002c500000b14000000000000000000000000000b140000000b1400002c500000b1400b1400002c5b16c5b16c5002c5b1400000000000000000b14000000000000
  (.n (.n (.n .l
  0xc400000000000000000000000000000000000000c40000031000000c4000c400000310c4000c4000000000000000000000000000093c000000000000
  .l)
  0xe13458b0000037cdc350e2360dd000cf00000348000000000000364d7378d3380db368d5358d0338000000000000000000000000000000000000000000000000000000000000000000000000000000000000000
  .l)
  0x10300000168000000000000000000000000000000000000000000000004140000000000000000000000000000000000000000000000000000000000000000000410000000000000
  (.n .l
  0x7ac0000000000000000000000000000019b00000000000000000000000000000000000000000000000000000000000000000000000000000000000000000000000000000000000000000000000000000
  .l))) 0x3e0000000000 (.n (.n (.n (.n .l
  0x2e50000000000002e5b940000000000000000000000002e500000b940000000000000000000000000000000000000b9400002e500000b9400b9400002e5b96e5b96e5002e5b94000000000000002e5b96e5002e500000
  .l)
  0x270a41c00016800000000009b000000000000000000000000000000000000000000000000001d07300000000001d400000000000000000000001d8720000000000000771e4781fc00
  .l)
  0xe6000000000000000270a41c00016800000000009b000000000000000000000000000000000000000000000000001d07300000000001d400000000000000000000001d87200000000002d0771e4781fc00
  (.n .l
  0x7500000000000000000000000000000000000000000000000000000000000000000000000000000000000000000000000000000000000000000000000000000000000000000000000000000000000000
  .l))
  0x27c00000000000000000000000000000000000000c600000000009f000000000000000000000000000000000000009f0000027c000009f0009f0000027c9f27c9f27c0027c9f0000000000000000009f0000000000000
  (.n (.n (.n .l
  0xc500000000000000000000000000000000000000c50000031400000c5000c500000314c5000c500000000000000000000000000009a8000000000000
  .l)
  0x270a41c00016800000000009b000000000000000000000000000000000000000000000000001d07300000000001d400000000000000000000001d8720000000000000771e4781fc00
  .l)
  0x2a7a9c0052800a9ea7a9ea7a9ea7002a700000a9ea7000e300000a9ea7a9ea7a9ea7a9ea7a9ea7a9c000000000000000000000000000000000000000000000000000000000000000000000000000000000000000
  (.n .l 0x2d0000000000000 .l)))) 0xc800000000000000000 (.n (.n (.n (.n (.n .l
  0x2370000000000000000000000000000000000000000000000000000000000000000000000000000000000000000000000000000000000000000000000000000000000000000000000000000000000000000
  .l)
  0x39900000000000000000000000000039900000000000000000000000000000000000000000000000000000000000000000000000000000000000000000000000000000000000000000000000000000
  .l)
  0x37edfb7edfb7edfb7edfb7edfb7edfb7edfb7edf800dfb7edfb7edf800dfb7edfb7edfb7edfb7edfb7edf80000000df8000037edfb7edf800df800dfb7edfb7edfb7e0037edf800dfb7e000000037edfb7edfb7edf800
  (.n .l
  0x270a41c00016800000000009b000000000000000000000000000000000000000000000000001d07300000000001d400000000000000000000001d8720000000000000771e4781fc00
  .l))
  0x1f00000000000000000000000000000000000000000000000000000000000000000000000000000000000000000000000000000001e0000000000
  (.n (.n (.n .l
  0xcc80000000000000000000000000000000000000cc8000033200000cc800cc80000332cc800cc800000000000000000000000000096c000000000000
  .l)
  0xe1347ad0000037cdc350e2360ddeb4cfeb40034958003ad00000364d7378d3380db368d5358d033800000000000000000eb7ad0000000000eb40000000000000000000000eb7ad00000000002d3adeb7adeb400
  .l)
  0x270a41c00016800000000009b000000000000000000000000000000000000000000000000001d07300000000001d400000000000000000000001d8720000000000000771e4781fc00
  (.n .l
  0x356d5b56d5b56d5b56d5b56d5b56d5b56d5b56d5800d5b56d5b56d5800d5b56d5b56d5b56d5b56d5b56d580000000d580000356d5b56d5800d5800d5b56d5b56d5b5600356d5800d5b560000000356d5b56d5b56d5800
  .l)))
  0x270000000000000000000000000000000000000000000000000009c000000000000000000000000000000000000009c00000270000009c0009c000002709c2709c270002709c0000000000000000009c0000000000000
  (.n (.n (.n (.n .l
  0x2ffbfce1346ffbfeff37cdc350e2360ddbfccfbfc0034affbfeffbfc00364d7378d3380db368d5358d03380000000bfc00002ffbfeffbfc00bfc00bfeffbfeffbfeff002ffbfc00bfeff00000002ffbfeffbfeffbfc00
  .l)
  0x377ddce134777ddf7737cdc350e2360ddddccfddc0034b77ddf77ddc00364d7378d3380db368d5358d03380000000ddc0000377ddf77ddc00ddc00ddf77ddf77ddf7700377ddc00ddf770000000377ddf77ddf77ddc00
  .l)
  0x39c0039c0000000000e739ce7000e7000000000039c00000000000000000000000000000000000000000000000000e739c0000000000e700000000e70000000000000e739c000000039ce739ce739ce7000
  (.n .l
  0xc000000000000000000000000000000000000000c00000030000000c0000c000000300c0000c00000000000000000000000000000778000000000000
  .l))
  0x296a5a96a5a96a5a96a5a96a5a96a5a96a5a96a5800a5a96a5a96a5800a5a96a5a96a5a96a5a96a5a96a580000000a580000296a5a96a5800a5800a5a96a5a96a5a9600296a5800a5a960000000296a5a96a5a96a5800
  (.n (.n .l
  0xd100000000000000000000000000000000000000d10000034400000d1000d100000344d1000d100000000000000000000000000006d8000000000000
  .l)
  0xe1344005780037cdc350e2360dd000cf00000348f70000000000364d7378d3380db368d5358d033800000000000000000000000000000000000000000000000000000000000000000000000057c000000000000
  (.n .l
  0xe1346200000037cdc350e2360dd000cf00000348000000000000364d7378d3380db368d5358d0338000000000000000000000000000000000000000000000000000000000000000000000000884000000000000
  .l))))) 0x2a0000000000 (.n (.n (.n (.n (.n (.n .l 0x2d0000000000000 .l)
  0x5b40000000000000000000000000000016e00000000000000000000000000000000000000000000000000000000000000000000000000000000000000000000000000000000000000000000000000000
  .l)
  0x371dc771dc771dc771dc771dc771dc771dc771dc400dc771dc771dc400dc771dc771dc771dc771dc771dc40000000dc40000371dc771dc400dc400dc771dc771dc77100371dc400dc7710000000371dc771dc771dc400
  (.n .l
  0x270a41c00016800000000009b000000000000000000000000000000000000000000000000001d07300000000001d400000000000000000000001d8720000000000000771e4781fc00
  .l))
  0x2ca000000000000000000000000000000000000000000000000000000000000000000000000000000000000000000b280000000000000000000000000000000000000
  (.n (.n (.n .l
  0x2d00000000000002d0b400000000000000000000000002d000000b400000000000000000000000000000000000000b4000002d000000b4000b4000002d0b42d0b42d0002d0b40000000000000002d0b42d0002d000000
  .l)
  0x54000000000000000000000000000000000000000000000000000000000000000000000000000000000000000000000000000000000000000000000000000001510000000000
  .l)
  0x28300000000000000000000000000000000000000000000000000a0c0000000000000000000000000000000000000a0c000028300000a0c00a0c0000283a0e83a0e8300283a0c00000000000000000a0c000000000000
  (.n .l
  0x7ec00000000000000000000000000000000000000000000000000000000000000000000000000000000000000000000000000000000000000000000000000000000000000000
  .l))) 0x4c00000 (.n (.n (.n (.n .l
  0xc0c0000000000000000000000000000000000000c0c000030300000c0c00c0c0000303c0c00c0c000000000000000000000000000914000000000000
  .l)
  0x28d00000000000000000000000000000000000000000000000000a340000000000000000000000000000000000000a34000028d00000a3400a34000028da368da368d0028da3400000000000000000a34000000000000
  .l) 0x11600000 (.n .l
  0x39fe7ce1344000000037cdc350e2360dd000cf000003480000000e7c00364d7378d3380db368d5358d03380000000e7c000039f00000e7c00e7c000039fe7f9fe7f9f0039fe7c00000000000000000e7c000000000000
  .l))
  0x28400000000000000000000000000000000000000000000000000a100000000000000000000000000000000000000a10000028400000a1000a100000284a1284a128400284a1000000000000000000a10000000000000
  (.n (.n (.n .l
  0xcd80000000000000000000000000000000000000cd8000033600000cd800cd80000336cd800cd8000000000000000000000000000000000000000000
  .l)
  0x6b4000000000000000000000000000001ae00000000000000000000000000000000000000000000000000000000000000000000000000000000000000000000000000000000000000000000000000000
  .l)
  0x2a2a8aa2a8aa2a8aa2a8aa2a8aa2a8aa2a8aa2a8800a8aa2a8aa2a8800a8aa2a8aa2a8aa2a8aa2a8aa2a880000000a8800002a2a8aa2a8800a8800a8aa2a8aa2a8aa2002a2a8800a8aa200000002a2a8aa2a8aa2a8800
  (.n .l
  0xe1346130000037cdc350e27c1f21c0cf16800348000009b00000364d7378d3380db368d5358d0338000000000000000001d07300000000001d400000000000000000000001d8720000000000850771e4781fc00
  .l)))) 0x36000000000000000000000000000000000000000000000000000000000000 (.n (.n (.n (.n (.n .l
  0x23e0000000000000000000000000000000000000000000000000000000000000000000000000000000000000000000000000000000000000000000000000000000000000000000000000000000000000000
  .l)
  0x17b000000000000000000000000000000000000000000000000000000000000000000000000000000000000000000000000000000000000002d80000000000000000000000000b9000b8000ba00000
  .l)
  0x270a41c00016800000000009b000000000000000000000000000000000000000000000000001d07300000000001d400000000000000000000001d8720000000000000771e4781fc00
  (.n .l
  0xe1347a4e900037cdc350e2360dde90cfe900034ba4003a400000364d7378d3380db368d5358d033800000000000000000e93a40000000000e900000000000000000000000e93a40000000000e93a4e93a4e9000
  .l))
  0x2b300000000000000000000000000000000000000000000000000acc0000000000000000000000000000000000000acc00002b300000acc00acc00002b3aceb3aceb3002b3acc00000000000000000acc000000000000
  (.n (.n (.n .l
  0xc780000000000000000000000000000000000000c78000031e00000c7800c78000031ec7800c7800000000000000000000000000098c000000000000
  .l)
  0x6880000000000000000000000000000000000000000000000000000000000000000000000000000000000000000000000000000000000000000000000000000000000000000000000000000000000000
  .l)
  0x270a41c00016800000000009b000000000000000000000000000000000000000000000000001d07300000000001d400000000000000000000001d8720000000000000771e4781fc00
  (.n .l
  0xc600000000000000000000000000000000000000c60000031800000c6000c600000318c6000c60000000000000000000000000000808000000000000
  .l)))
  0x11c00000000000000000000000000000000000000000000000000000000000000000000000000000000000000000000000000000000000000000000000000000450000000000
  (.n (.n (.n (.n .l
  0x24c0000000000000000000000000000000000000000000000000000000000000000000000000000000000000000000000000000000000000000000000000000000000000000000000000000000000000000
  .l)
  0x379de4e134779de77937cdc350e2360ddde4cfde40034b79de779de400364d7378d3380db368d5358d03380000000de40000379de779de400de400de779de779de77900379de400de7790000000379de779de779de400
  .l)
  0x270a41c00016800000000009b000000000000000000000000000000000000000000000000001d07300000000001d400000000000000000000001d8720000000000000771e4781fc00
  (.n .l
  0x2f80000000000270a41c00016800002f80009b000000000000000000000000000000000000000000000000001d07300000000001d40000000be00000000000001d87200000002f8be0771e4781fc00
  .l))
  0x2a3a8ea3a8ea3a8ea3a8ea3a8ea3a8ea3a8ea3a8c00a8ea3a8ea3a8c00a8ea3a8ea3a8ea3a8ea3a8ea3a8c0000000a8c00002a3a8ea3a8c00a8c00a8ea3a8ea3a8ea3002a3a8c00a8ea300000002a3a8ea3a8ea3a8c00
  (.n (.n .l 0x5fc0000000000000000000000000b9000b8000ba00000 .l)
  0x2b4000e1344000000037cdc350e2360dd000cf000003480000000ad000364d7378d3380db368d5358d03380000000ad000002b400000ad000ad000002b4ad2b4ad2b4002b4ad000000000000000000ad0000000000000
  (.n .l
  0x34ed3b4ed3b4ed3b4ed3b4ed3b4ed3b4ed3b4ed3800d3b4ed3b4ed3800d3b4ed3b4ed3b4ed3b4ed3b4ed380000000d38000034ed3b4ed3800d3800d3b4ed3b4ed3b4e0034ed3800d3b4e000000034ed3b4ed3b4ed3800
  .l)))))))
  0x1500000000000000000000000000000000000000000000000000000000000000000000000000000000000000000000000000000000000000000000000000000000000000000000000000000000000000000000000000
  (.n (.n (.n (.n (.n (.n (.n (.n .l
  0xc640000000000000000000000000000000000000c64000031900000c6400c640000319c6400c640000000000000000000000000008a8000000000000
  .l)
  0x2b800000000000000000000000000000000000000000000000000ae00000000000000000000000000000000000000ae000002b800000ae000ae000002b8ae2b8ae2b8002b8ae000000000000000000ae0000000000000
  .l)
  0x35fd7f5fd7f5fd7f5fd7f5fd7f5fd7f5fd7f5fd7c00d7f5fd7f5fd7c00d7f5fd7f5fd7f5fd7f5fd7f5fd7c0000000d7c000035fd7f5fd7c00d7c00d7f5fd7f5fd7f5f0035fd7c00d7f5f000000035fd7f5fd7f5fd7c00
  (.n .l
  0x1bd0000000000000000000000000000000000000000000000000000000000000000000000000000000000000000006f80000000000000000000000000000000000000
  .l))
  0x29100000000000000000000000000000000000000000000000000a440000000000000000000000000000000000000a44000029100000a4400a440000291a4691a469100291a4400000000000000000a44000000000000
  (.n (.n (.n .l
  0xba800000000000000000000000000000000000000000000000000000000000000000000000000000000000000000000000000000000000000000000000000
  .l)
  0x381e04e134781e078137cdc350e2360dde04cfe040034b81e0781e0400364d7378d3380db368d5358d03380000000e040000381e0781e0400e0400e0781e0781e078100381e0400e07810000000381e0781e0781e0400
  .l)
  0x270711c00016800000000009b000000000000000000000000000000000000000000000000001d07300000000001d400000000000000000000001d8720000000000000771e4781fc00
  (.n .l
  0x38be2f8be2f8be2f8be2f8be2f8be2f8be2f8be2c00e2f8be2f8be2c00e2f8be2f8be2f8be2f8be2f8be2c0000000e2c000038be2f8be2c00e2c00e2f8be2f8be2f8b0038be2c00e2f8b000000038be2f8be2f8be2c00
  .l))) 0x3c0000000000 (.n (.n (.n (.n .l
  0x2de0000000000002deb780000000000000000000000002de00000b780000000000000000000000000000000000000b7800002de00000b7800b7800002deb7adeb7ade002deb78000000000000002deb7ade002de00000
  .l)
  0x270711c00016800000000009b000000000000000000000000000000000000000000000000001d07300000000001d400000000000000000000001d8720000000000000771e4781fc00
  .l)
  0x29000000000000000000000000000000000000000000000000000a400000000000000000000000000000000000000a40000029000000a4000a400000290a4290a429000290a4000000000000000000a40000000000000
  (.n .l
  0x354d5354d5354d5354d5354d5354d5354d5354d5000d5354d5354d5000d5354d5354d5354d5354d5354d500000000d500000354d5354d5000d5000d5354d5354d535400354d5000d53540000000354d5354d5354d5000
  .l))
  0xc400000000000000000000000000000000000000000000000000000000000000000000000000000000000000000030c0000000000000000000000000000000000000
  (.n (.n (.n .l
  0xcd00000000000000000000000000000000000000cd0000033400000cd000cd00000334cd000cd00000000000000000000000000009a0000000000000
  .l)
  0x35bd6f5bd6f5bd6f5bd6f5bd6f5bd6f5bd6f5bd6c00d6f5bd6f5bd6c00d6f5bd6f5bd6f5bd6f5bd6f5bd6c0000000d6c000035bd6f5bd6c00d6c00d6f5bd6f5bd6f5b0035bd6c00d6f5b000000035bd6f5bd6f5bd6c00
  .l)
  0x270a41c00016800000000009b000000000000000000000000000000000000000000000000001d07300000000001d400000000000000000000001d8720000000000000771e4781fc00
  (.n .l
  0xcb80000000000000000000000000000000000000cb8000032e00000cb800cb8000032ecb800cb8000000000000000000000000000820000000000000
  .l))))
  0x500000000000000000000000000000000000000d34000034d00000d3400d34000034dd3400d34000000000000000000000000000000000000000000
  (.n (.n (.n (.n (.n .l
  0xe1346360000037cdc350e2360dd000cf00000348000000000000364d7378d3380db368d5358d03380000000000000000000000000000000000000000000000000000000000000000000000008d4000000000000
  .l)
  0xcdc0000000000000000000000000000000000000cdc000033700000cdc00cdc0000337cdc00cdc0000000000000000000000000005d4000000000000
  .l)
  0x37cdf37cdf37cdf37cdf37cdf37cdf37cdf37cdf000df37cdf37cdf000df37cdf37cdf37cdf37cdf37cdf00000000df0000037cdf37cdf000df000df37cdf37cdf37c0037cdf000df37c000000037cdf37cdf37cdf000
  (.n .l
  0x270a41c00016800000000009b000000000000000000000000000000000000000000000000001d07300000000001d400000000000000000000001d8720000000000000771e4781fc00
  .l))
  0xab0000000000000000000000000000aa00000000000000000000000000000000000000000000000000000000000000000000000000000000000000000000000000000000000000000000000000000
  (.n (.n (.n .l
  0xd280000000000000000000000000000000000000d28000034a00000d2800d28000034ad2800d28000000000000000000000000000964000000000000
  .l)
  0x197000000000000000270a41c00016800000000009b000000000000000000000000000000000000000000000000001d07300000000001d400000000000000000000001d8720000000000000771e4781fc00
  .l)
  0x4e00000000270a41c00016800000000009b000000000000000000000000000000000000000000000000001d07300000000001d400000000000000000000001d8720000000000000771e4781fd36
  (.n .l
  0x350d4350d4350d4350d4350d4350d4350d4350d4000d4350d4350d4000d4350d4350d4350d4350d4350d400000000d400000350d4350d4000d4000d4350d4350d435000350d4000d43500000000350d4350d4350d4000
  .l)))
  0x14400000000000000000000000000000000000000000000000000000000000000000000000000000000000000000000000000000000000000000000000000000000000000000
  (.n (.n (.n (.n .l
  0x2bc00000000000000000000000000000000000000000000000000000000000000000000000000000000000000000000000000000000000000af00000000000000000000000002bc46ebc002bc00000
  .l)
  0x2febf8e1346febfafe37cdc350e2360ddbf8cfbf80034afebfafebf800364d7378d3380db368d5358d03380000000bf800002febfafebf800bf800bfafebfafebfafe002febf800bfafe00000002febfafebfafebf800
  .l)
  0x3b300000000000000000000000000012000000000000000000000000000000000000000000000000000000000000000000000000000000000ecc0000000000000000000000003b32d3b3003b300000
  (.n .l
  0xc5c0000000000000000000000000000000000000c5c000031700000c5c00c5c0000317c5c00c5c000000000000000000000000000770000000000000
  .l)) 0x3c4f200000000003c000000000000000000000003bc000000000000000ee000ed1fc00 (.n (.n .l
  0x6d00000000000000000000000000000000000000000000000000000000000000000000000000000000000000000000000000000000000000000000000000000000000000000000000000000000000000
  .l)
  0x293a4e93a4e93a4e93a4e93a4e93a4e93a4e93a4c00a4e93a4e93a4c00a4e93a4e93a4e93a4e93a4e93a4c0000000a4c0000293a4e93a4c00a4c00a4e93a4e93a4e9300293a4c00a4e930000000293a4e93a4e93a4c00
  (.n .l
  0xe60000050c0000000270a41c00016800000000009b000000000000000000000000000000000000000000000000001d07300000000001d400000000000000000000001d87200000000002d0771e4781fc00
  .l))))) 0x900000023000000a000088000002509c00098000000000000000000000000000000000000000000 (.n
  (.n (.n (.n (.n (.n .l
  0x2bf00000000000000000000000000000000000000000000000000000000000000000000000000000000000000000000000000000000000000afc0000000000000000000000002bf46ebf002bf00000
  .l)
  0x2c25a800000000000000000000000000000000000000000000000b080000000000000000000000000000000000000b0800002c200000b0800b0800002c2b0ac2b0ac2002c2b0800000000000000000b08000000000000
  .l)
  0x367d9f67d9f67d9f67d9f67d9f67d9f67d9f67d9c00d9f67d9f67d9c00d9f67d9f67d9f67d9f67d9f67d9c0000000d9c0000367d9f67d9c00d9c00d9f67d9f67d9f6700367d9c00d9f670000000367d9f67d9f67d9c00
  (.n .l
  0xe1345c20000037cdc350e2360dd000cf00000348000000000000364d7378d3380db368d5358d0338000000000000000000000000000000000000000000000000000000000000000000000000000000000000000
  .l))
  0x274000000000000000000009e0000000000000000000000000000000000000000000000000000000000000000000000000000000000000000000000000000000000000000000000000000000000
  (.n (.n (.n .l
  0x2d80000000000002d8b600000000000000000000000002d800000b600000000000000000000000000000000000000b6000002d800000b6000b6000002d8b62d8b62d8002d8b60000000000000002d8b62d8002d800000
  .l)
  0x2a9aa6a9aa6a9aa6a9aa6a9aa6a9aa6a9aa6a9aa400aa6a9aa58daa400aa6a9aa6a9aa6a9aa6a9aa6a9aa40000000aa400002a9aa6a9aa400aa400aa6a9aa6a9aa6a9002a9aa400aa6a900000002a9aa6a9aa6a9aa400
  .l)
  0x4bc00000004b80000000000000000000000000000000000000000000000000000000000000000000000000000000000000000000000000000000000000000000000000000000000000000000000000000000000000
  (.n .l
  0xe1345f70000037cdc350e27c1f21c0cf16800348000009b00000364d7378d3380db368d5358d0338000000000000000001d07300000000001d400000000000000000000001d87200000000007e4771e4781fc00
  .l)))
  0x11c00000490000000000000000000000000000000000000000000000000000000000000000000000000000000000000000000000000000000000000000000000450000000000
  (.n (.n (.n (.n .l
  0xc680000000000000000000000000000000000000c68000031a00000c6800c68000031ac6800c6800000000000000000000000000090c000000000000
  .l)
  0x10300000168000000000000000000000000000000000000000000000004140000000000000000000000000000000000000000000000000000000000000000000410000000000000
  .l)
  0x1f00000000000000000000000000000000000000000000000000000000000000000000000000000000000000000000000000000001e0000000000
  (.n .l
  0x270a41c00016800000000009b000000000000000000000000000000000000000000000000001d07300000000001d400000000000000000000001d8720000000000000771e4781fc00
  .l))
  0x270711c00016800000000009b000000000000000000000000000000000000000000000000001d07300000000001d400000000000000000000001d8720000000000000771e4781fc00
  (.n (.n (.n .l
  0xc540000000000000000000000000000000000000c54000031500000c5400c540000315c5400c54000000000000000000000000000000000000000000
  .l)
  0x270a41c00016800000000009b000000000000000000000000000000000000000000000000001d07300000000001d400000000000000000000001d8720000000000000771e4781fc00
  .l)
  0x155000000000000000270a41c00016800000000009b000000000000000000000000000000000000000000000000001d07300000000001d400000000000000000000001d8720000000000000771e4781fc00
  (.n .l
  0xe134400f080037cdc350e2360dd000cf0000034bc20000000000364d7378d3380db368d5358d0338000000000000000000000000000000000000000000000000000000000000000000000000000000000000000
  .l))))
  0x271000000000000000000000000000000000000000000000000009c400000000000000000000000000000000000009c40000271000009c4009c400002719c6719c671002719c4000000000000000009c4000000000000
  (.n (.n (.n (.n (.n .l
  0x2d30000000000002d3b4c0000000000000000000000002d300000b4c0000000000000000000000000000000000000b4c00002d300000b4c00b4c00002d3b4ed3b4ed3002d3b4c000000000000002d3b4ed3002d300000
  .l)
  0x3bb00000000000000000000000000000000000000000000000000000000000000000000000000000000000000000000000000000000000000eec0000000000000000000000003bb2d3bb003bb00000
  .l)
  0x38ae2b8ae2b8ae2b8ae2b8ae2b8ae2b8ae2b8ae2800e2b8ae2b8ae2800e2b8ae2b8ae2b8ae2b8ae2b8ae280000000e28000038ae2b8ae2800e2800e2b8ae2b8ae2b8a0038ae2800e2b8a000000038ae2b8ae2b8ae2800
  (.n .l
  0x3a6000000000000000e9ba6e9800e980000000003a600000000000000000000000000000000000000000000000000e9ba60000000000e980000000000000000000000e9ba6000000000046fa6e9ba6e9800
  .l))
  0xb1000000000000000000000000000000000000000000000000000000000000000000000000000000000000000000000000000000000000002d80000000000000000000000000b92d0b8000ba00000
  (.n (.n (.n .l
  0xcfc0000000000000000000000000000000000000cfc000033f00000cfc00cfc000033fcfc00cfc000000000000000000000000000984000000000000
  .l)
  0xe13440067c0037cdc350e2360dd000cf00000348f70000000000364d7378d3380db368d5358d0338000000000000000000000000000000000000000000000000000000000000000000000000678000000000000
  .l)
  0x270a41c00016800000000009b000000000000000000000000000000000000000000000000001d07300000000001d400000000000000000000001d8720000000000000771e4781fc00
  (.n .l
  0x270a41c00016800000000009b000000000000000000000000000000000000000000000000001d07300000000001d400000000000000000000001d8720000000000000771e4781fc00
  .l)))
  0x168000000000000000000000000000000000000000000000000000000000000000000000000000000000000000000000000000000000000000000000000000000000000
  (.n (.n (.n (.n .l
  0x2d60000000000002d6b580000000000000000000000002d600000b580000000000000000000000000000000000000b5800002d600000b5800b5800002d6b5ad6b5ad6002d6b58000000000000002d6b5ad6002d600000
  .l)
  0x384e10e134784e138437cdc350e2360dde10cfe100034b84e1384e1000364d7378d3380db368d5358d03380000000e100000384e1384e1000e1000e1384e1384e138400384e1000e13840000000384e1384e1384e1000
  .l)
  0xbbc00000000000000000000000000000000000000000000000000000000000000000000000000000000000000000000000000000000000000000000000000
  (.n .l
  0x3af0000000000000000000000000003af00000000000000000000000000000000000000000000000000000000000000000000000000000000ebc0000000000000000000000003afebfaf003af00000
  .l))
  0x2a0a82a0a82a0a82a0a82a0a82a0a82a0a82a0a8000a82a0a82a0a8000a82a0a82a0a82a0a82a0a82a0a800000000a8000002a0a82a0a8000a8000a82a0a82a0a82a0002a0a8000a82a000000002a0a82a0a82a0a8000
  (.n (.n .l
  0x3ba00000000000000000000000000000000000000000000000000000000000000000000000000000000000000000000000000000000000000ee80000000000000000000000003ba46fba003ba00000
  .l)
  0x270711c00016800000000009b000000000000000000000000000000000000000000000000001d07300000000001d400000000000000000000001d8720000000000000771e4781fc00
  (.n .l
  0x8980000000000000000000000000000000000000000000000000000000000000000000000000000000000000000000000000000000000000000000000000000000000000000000000000000000000000
  .l))))))
  0x190000000000000000000000000000000000000000000000000000000000000000000000000000000000000000000000000000000000000000000000000000000000
  (.n (.n (.n (.n (.n (.n (.n .l
  0xd1c0000000000000000000000000000000000000d1c000034700000d1c00d1c0000347d1c00d1c0000000000000000000000000008b8000000000000
  .l)
  0x28e00000000000000000000000000000000000000000000000000a380000000000000000000000000000000000000a38000028e00000a3800a38000028ea3a8ea3a8e0028ea3800000000000000000a38000000000000
  .l)
  0x363d8f63d8f63d8f63d8f63d8f63d8f63d8f63d8c00d8f63d8f63d8c00d8f63d8f63d8f63d8f63d8f63d8c0000000d8c0000363d8f63d8c00d8c00d8f63d8f63d8f6300363d8c00d8f630000000363d8f63d8f63d8c00
  (.n .l
  0x28900000000000000000000000000000000000000000000000000a240000000000000000000000000000000000000a24000028900000a2400a240000289a2689a268900289a2400000000000000000a24000000000000
  .l))
  0x2c7b1c0000000b1c00b1c0000000002c700000002c7002c700000b1c000000000000000000000000000b1c0000000b1c00002c700000b1c00b1c00002c7b1ec7b1ec7002c7b1c00000000000000000b1c000000000000
  (.n (.n (.n .l
  0xc9c0000000000000000000000000000000000000c9c000032700000c9c00c9c0000327c9c00c9c000000000000000000000000000944000000000000
  .l)
  0xe1344000000037cdc350e2360dd000cf00000348006300000000364d7378d3380db368d5358d0338000000000000000000000000000000000000000000000000000000000000000000000000000000000000000
  .l)
  0x270a41c00016800000000009b000000000000000000000000000000000000000000000000001d07300000000001d400000000000000000000001d8720000000000000771e4781fc00
  (.n .l
  0x270a41c00016800000000009b000000000000000000000000000000000000000000000000001d07300000000001d400000000000000000000001d8720000000000000771e4781fc00
  .l))) 0x400000000000 (.n (.n (.n (.n .l
  0x2410000000000000000000000000000000000000000000000000000000000000000000000000000000000000 .l)
  0x28000000000000000000000000000000000000000000000000000a000000000000000000000000000000000000000a00000028000000a0000a000000280a0280a028000280a0000000000000000000a00000000000000
  .l)
  0x11c00000000000000000000000000000000000000000000000000000000000000000000000000000000000000000000000000000000000000000000000000000450000000000
  (.n .l
  0x270a41c00016800000000009b000000000000000000000000000000000000000000000000001d07300000000001d400000000000000000000001d8720000000000000771e4781fc00
  .l))
  0x2c4b100000000b1000b1000000000006800000002c4002c400000b10000000000000000000000000000b100000000b1000002c400000b1000b1000002c4b12c4b12c4002c4b1000000000000000000b10000000000000
  (.n (.n (.n .l
  0xcac0000000000000000000000000000000000000cac000032b00000cac00cac000032bcac00cac000000000000000000000000000000000000000000
  .l)
  0x28b00000000000000000000000000000000000000000000000000a2c0000000000000000000000000000000000000a2c000028b00000a2c00a2c000028ba2e8ba2e8b0028ba2c00000000000000000a2c000000000000
  .l)
  0x2f3bcef3bcef3bcef3bcef3bcef3bcef3bcef3bcc00bcef3bcef3bcc00bcef3bcef3bcef3bcef3bcef3bcc0000000bcc00002f3bcef3bcc00bcc00bcef3bcef3bcef3002f3bcc00bcef300000002f3bcef3bcef3bcc00
  (.n .l
  0x10300000168000000000000000000000000000000000000000000000004140000000000000000000000000000000000000000000000000000000000000000000410000000000000
  .l))))
  0x39600000000000000000000000000000000000000000000000000e580000000000000000000000000000000000000e58000039600000e5800e580000396e5b96e5b9600396e58000000000000000000cc000000000000
  (.n (.n (.n (.n (.n .l
  0xe1346390000037cdc350e2360dd000cf00000348000000000000364d7378d3380db368d5358d03380000000000000000000000000000000000000000000000000000000000000000000000008e0000000000000
  .l)
  0x2ab00000000000000000000000000000000000000000000000000aac0000000000000000000000000000000000000aac00002ab00000aac00aac00002abaaeabaaeab002abaac00000000000000000aac000000000000
  .l)
  0x380e0380e0380e0380e0380e0380e0380e0380e0000e0380e0380e0000e0380e0380e0380e0380e0380e000000000e000000380e0380e0000e0000e0380e0380e038000380e0000e03800000000380e0380e0380e0000
  (.n .l
  0x270a41c00016800000000009b000000000000000000000000000000000000000000000000001d07300000001cc1d400000000000000000000001d8720000000000000771e4781fc00
  .l))
  0x2cc0000000000000000000000000002cc000000000000000000000000000000000000000000000000000000000000002cc000000000000000000000000000000000000000000000000000000000000
  (.n (.n (.n .l
  0xc480000000000000000000000000000000000000c48000031200000c4800c480000312c4800c48000000000000000000000000000974000000000000
  .l)
  0x3a7000000000000000e9fa7e9c00e9c000019b003a700000000000000000000000000000000000000000000000000e9fa70000000000e9c0000000000000000000000e9fa700000000002d3a7e9fa7e9c00
  .l)
  0x270a41c00016800000000009b000000000000000000000000000000000000000000000000001d07300000000001d400000000000000000000001d8720000000000000771e4781fc00
  (.n .l
  0xe1344007f40037cdc350e2360dd000cf00000348000000000000364d7378d3380db368d5358d0338000000000000000000000000000000000000000000000000000000000000000000000000000000000000000
  .l))) 0x5500000 (.n (.n (.n (.n .l
  0x2d90000000000002d9b640000000000000000000000002d900000b640000000000000000000000000000000000000b6400002d900000b6400b6400002d9b66d9b66d9002d9b64000000000000002d9b66d9002d900000
  .l)
  0x62000000000000000000000000000000000000000000000000000000000000000000000000000000000000000000000000000000000000000000000000000000000000000000
  .l)
  0xbf000000000000000000000000000000000000000000000000000000000000000000000000000000000000000000000000000000000000001230000000000
  (.n .l
  0xd140000000000000000000000000000000000000d14000034500000d1400d140000345d1400d14000000000000000000000000000780000000000000
  .l))
  0x29aa6a9aa6a9aa6a9aa6a9aa6a9aa6a9aa6a9aa6800a6a9aa6a9aa6800a6a9aa6a9aa6a9aa6a9aa6a9aa680000000a68000029aa6a9aa6800a6800a6a9aa6a9aa6a9a0029aa6800a6a9a000000029aa6a9aa6a9aa6800
  (.n (.n .l
  0xcb00000000000000000000000000000000000000cb0000032c00000cb000cb0000032ccb000cb00000000000000000000000000006e0000000000000
  .l)
  0x35cd735cd735cd735cd735cd735cd735cd735cd7000d735cd735cd7000d735cd735cd735cd735cd735cd700000000d70000035cd735cd7000d7000d735cd735cd735c0035cd7000d735c000000035cd735cd735cd7000
  (.n .l
  0x2df0000000000002dfb7c0000000000000000000000002df00000b7c0000000000000000000000000000000000000b7c00002df00000b7c00b7c00002dfb7edfb7edf002dfb7c000000000000002dfb7edf002df00000
  .l))))) 0x2c0000000000 (.n (.n (.n (.n (.n (.n .l 0x2d0000000000000 .l)
  0x5c00000000000000000000000000000000000000000000000000000000000000000000000000000000000000000000000000000000000000000000000000000000000000000000000000000000000000
  .l)
  0x373dcf73dcf73dcf73dcf73dcf73dcf73dcf73dcc00dcf73dcf73dcc00dcf73dcf73dcf73dcf73dcf73dcc0000000dcc0000373dcf73dcc00dcc00dcf73dcf73dcf7300373dcc00dcf730000000373dcf73dcf73dcc00
  (.n .l
  0xe1344000000037cdc350e2360dd000cf00000349580000000000364d7378d3380db368d5358d0338000000000000000000000000000000000000000000000000000000000000000000000000000000000000000
  .l))
  0x2cb0000000000000000000000000000000000000000000000000000000000000000000000000000000000000000000000000000000000000000000000000000000000
  (.n (.n (.n .l
  0xc700000000000000000000000000000000000000c70000031c00000c7000c70000031cc7000c70000000000000000000000000000954000000000000
  .l)
  0x64c00000000000000000000000000000000000000000000000000000000000000000000000000000000000000000000000000000000000000000000000000
  .l)
  0x270a41c00016800000000009b000000000000000000000000000000000000000000000000001d07300000000001d400000000000000000000001d8720000000000000771e4781fc00
  (.n .l
  0x3aa000000000000000eabaaea800ea80000000003aa00000000000000000000000000000000000000000000000000eabaa0000000000ea80000000000000000000000eabaa000000000046faaeabaaea800
  .l)))
  0x4f0000000000000000000000000000000000000000000000000000000000000000000000000000000000000000000000000000000000000000000000000000000000
  (.n (.n (.n (.n .l
  0xd200000000000000000000000000000000000000d20000034800000d2000d200000348d2000d2000000000000000000000000000091c000000000000
  .l)
  0x2c8b200000000b2000b200000000002c800000002c8002c800000b20000000000000000000000000000b200000000b2000002c800000b2000b2000002c8b22c8b22c8002c8b2000000000000000000b20000000000000
  .l) 0x1170000000000 (.n .l 0x1d90000000000 .l))
  0x2b200000000000000000000000000000000000000000000000000ac80000000000000000000000000000000000000ac800002b200000ac800ac800002b2acab2acab2002b2ac800000000000000000ac8000000000000
  (.n (.n .l 0x1b00000000000 .l)
  0x29ba6e9ba6e9ba6e9ba6e9ba6e9ba6e9ba6e9ba6c00a6e9ba6e9ba6c00a6e9ba6e9ba6e9ba6e9ba6e9ba6c0000000a6c000029ba6e9ba6c00a6c00a6e9ba6e9ba6e9b0029ba6c00a6e9b000000029ba6e9ba6e9ba6c00
  (.n .l
  0xe13461a0000037cdc350e27c1f21c0cf16800348000009b00000364d7378d3380db368d5358d0338000000000000000001d07300000000001d400000000000000000000001d8720000000000864771e4781fc00
  .l))))
  0x2cd0000000000000000000000000002cd000000000000000000000000000000000000000000037000000000000000002cd000000000000000000000000000000000000000000000000000000000000
  (.n (.n (.n (.n (.n .l
  0x2e20000000000002e2b880000000000000000000000002e200000b880000000000000000000000000000000000000b8800002e200000b8800b8800002e2b8ae2b8ae2002e2b88000000000000002e2b8ae2002e200000
  .l)
  0x3b200000000000000000000000000000000000000000000000000000000000000000000000000000000000000000000000000000000000000ec80000000000000000000000003b246fb2003b200000
  .l)
  0x270711c00016800000000009b000000000000000000000000000000000000000000000000001d07300000000001d400000000000000000000001d8720000000000000771e4781fc00
  (.n .l
  0x7480000000000000000000000000000000000000000000000000000000000000000000000000000000000000000000000000000000000000000000000000000000000000000000000000000000000000
  .l))
  0x270a41c00016800000000009b000000000000000000000000000000000000000000000000001d07300000000001d400000000000000000000001d8720000000000000771e4781fc00
  (.n (.n (.n .l
  0xc1c0000000000000000000000000000000000000c1c000030700000c1c00c1c0000307c1c00c1c000000000000000000000000000994000000000000
  .l)
  0x359d6759d6759d6759d6759d6759d6759d6759d6400d6759d6759d6400d6759d6759d6759d6759d6759d640000000d640000359d6759d6400d6400d6759d6759d675900359d6400d67590000000359d6759d6759d6400
  .l)
  0x270a41c00016800000000009b000000000000000000000000000000000000000000000000001d07300000000001d400000000000000000000001d8720000000000000771e4781fc00
  (.n .l
  0xc040000000000000000000000000000000000000c04000030100000c0400c040000301c0400c04000000000000000000000000000810000000000000
  .l)))
  0x11c000005f0000000000000000000000000000000000000000000000000000000000000000000000000000000000000000000000000000000000000000000000450000000000
  (.n (.n (.n (.n .l
  0x2e00000000000002e0b800000000000000000000000002e000000b800000000000000000000000000000000000000b8000002e000000b8000b8000002e0b82e0b82e0002e0b80000000000000002e0b82e0002e000000
  .l)
  0x386e18e134786e1b8637cdc350e2360dde18cfe180034b86e1b86e1800364d7378d3380db368d5358d03380000000e180000386e1b86e1800e1800e1b86e1b86e1b8600386e1800e1b860000000386e1b86e1b86e1800
  .l)
  0x28100000000000000000000000000000000000000000000000000a040000000000000000000000000000000000000a04000028100000a0400a040000281a0681a068100281a0400000000000000000a04000000000000
  (.n .l
  0x1e60000000000000000000000000000000000000000000000000000000000000000000000000000000000000000000000000000000000000000000000000000000000
  .l))
  0x2a5a96a5a96a5a96a5a96a5a96a5a96a5a96a5a9400a96a5a96a5a9400a96a5a96a5a96a5a96a5a96a5a940000000a9400002a5a96a5a9400a9400a96a5a96a5a96a5002a5a9400a96a500000002a5a96a5a96a5a9400
  (.n (.n .l
  0x3ae0000000000000000000000000003ae00000000000000000000000000000000000000000000000000000000000000000000000000000000eb80000000000000000000000003aeebbae003ae00000
  .l)
  0x10300000168000000000000000000000000000000000000000000000004140000000000000000000000000000000000000000000000000000000000000000000410000000000000
  (.n .l
  0x2ec000e1344000000037cdc350e2360dd000cf000003480000000bb000364d7378d3380db368d5358d03380000000bb000002ec00000bb000bb000002ecbb2ecbb2ec002ecbb000000000000000000bb0000000000000
  .l))))))))
  0x26f0000000000000000000000000000000000000000000000000005000000000000000000000000000000000000000300000010000000440002c000000d03c07038090000801800000000000000000014000000000000
  (.n (.n (.n (.n (.n (.n (.n (.n (.n .l
  0x2af000e1344000000037cdc350e2360dd000cf000003480000000abc00364d7378d3380db368d5358d03380000000abc00002af00000abc00abc00002afabeafabeaf002afabc00000000000000000abc000000000000
  .l)
  0x2b700000000000000000000000000000000000000000000000000adc0000000000000000000000000000000000000adc00002b700000adc00adc00002b7adeb7adeb7002b7adc00000000000000000adc000000000000
  .l)
  0x35ed7b5ed7b5ed7b5ed7b5ed7b5ed7b5ed7b5ed7800d7b5ed7b5ed7800d7b5ed7b5ed7b5ed7b5ed7b5ed780000000d78000035ed7b5ed7800d7800d7b5ed7b5ed7b5e0035ed7800d7b5e000000035ed7b5ed7b5ed7800
  (.n .l
  0xe134400002f96f0dc350e2360dd000cf0000034af90000000000364d7378d3380db368d5358d0338000000000000000000000000000000000000000000be40000000000000000000000002f9be6f9002f900000
  .l)) 0x4e00000 (.n (.n (.n .l
  0x270a41c00016800000000009b000000000000000000000000000000000000000000000000001d07300000000001d400000000000000000000001d8720000000000000771e4781fc00
  .l)
  0x36bdace13476bdaf6b37cdc350e2360dddaccfdac0034b6bdaf6bdac00364d7378d3380db368d5358d03380000000dac000036bdaf6bdac00dac00daf6bdaf6bdaf6b0036bdac00daf6b000000036bdaf6bdaf6bdac00
  .l)
  0x1280000000000000000000000000000000000000000000000000000000000000000000000000000000000000000000000000000000000000000000000000000000000
  (.n .l
  0x270a41c00016800000000009b000000000000000000000000000000000000000000000000001d07300000000001d400000000000000000000001d8720000000000000771e4781fc00
  .l)))
  0x3b0000000000000000000000000000000000000000000000000000000000000000000000000000000000000000000000000000000000000000000000000000000000
  (.n (.n (.n (.n .l
  0x23f0000000000000000000000000000000000000000000000000000000000000000000000000000000000000000000000000000000000000000000000000000000000000000000000000000000000000000
  .l)
  0x3b400000000000000000000000000000000000000000000000000000000000000000000000000000000000000000000000000000000000000ed00000000000000000000000003b446fb4003b400000
  .l)
  0x10300000168000000000000000000000000000000000000000000000004140000000000000000000000000000000000000000000000000000000000000000000410000000000000
  (.n .l
  0x353d4f53d4f53d4f53d4f53d4f53d4f53d4f53d4c00d4f53d4f53d4c00d4f53d4f53d4f53d4f53d4f53d4c0000000d4c0000353d4f53d4c00d4c00d4f53d4f53d4f5300353d4c00d4f530000000353d4f53d4f53d4c00
  .l))
  0x30400000000000000000000c20000000000000000000000000000000000000000000000000000000000000000000000000000000000000000000000000000000000000000000000000000000000
  (.n (.n (.n .l
  0xd000000000000000000000000000000000000000d00000034000000d0000d000000340d0000d0000000000000000000000000000099c000000000000
  .l)
  0x6a00000000000000000000000000000000000000000000000000000000000000000000000000000000000000000000000000000000000000000000000000000000000000000000000000000000000000
  .l)
  0x270a41c00016800000000009b000000000000000000000000000000000000000000000000001d07300000000001d400000000000000000000001d8720000000000000771e4781fc00
  (.n .l
  0xce80000000000000000000000000000000000000ce8000033a00000ce800ce8000033ace800ce800000000000000000000000000081c000000000000
  .l)))) 0x300000000000 (.n (.n (.n (.n (.n .l
  0x270a41c00016800000000009b000000000000000000000000000000000000000000000000001d07300000000001d400000000000000000000001d8720000000000000771e4781fc00
  .l)
  0xd0c0000000000000000000000000000000000000d0c000034300000d0c00d0c0000343d0c00d0c0000000000000000000000000005d0000000000000
  .l)
  0x37bdef7bdef7bdef7bdef7bdef7bdef7bdef7bdec00def7bdef7bdec00def7bdef7bdef7bdef7bdef7bdec0000000dec000037bdef7bdec00dec00def7bdef7bdef7b0037bdec00def7b000000037bdef7bdef7bdec00
  (.n .l
  0x71c00000000000000000000000000000000000000000000000000000000000000000000000000000000000000000000000000000000000000000000000000
  .l))
  0x2a0000000000000270a41c00016800000000009b000000000000000000000000000000000000000000000000001d07300000000001d400000000000000000000001d872000000000029c771e4781fc00
  (.n (.n (.n .l
  0xca00000000000000000000000000000000000000ca0000032800000ca000ca00000328ca000ca0000000000000000000000000000960000000000000
  .l) 0x1960000000000000000000000000000000000000000000000000000000000000000000000000000000000000
  .l)
  0x270a41c00016800000000009b000000000000000000000000000000000000000000000000001d07300000000001d400000000000000000000001d8720000000000000771e4781fc00
  (.n .l
  0x34fd3f4fd3f4fd3f4fd3f4fd3f4fd3f4fd3f4fd3c00d3f4fd3f4fd3c00d3f4fd3f4fd3f4fd3f4fd3f4fd3c0000000d3c000034fd3f4fd3c00d3c00d3f4fd3f4fd3f4f0034fd3c00d3f4f000000034fd3f4fd3f4fd3c00
  .l)))
  0xef40000000000000000000000000000000000000ef400003bd00000ef400ef400003bdef400ef4000000000000000000000000000000000000000000
  (.n (.n (.n (.n .l
  0x2be00000000000000000000000000000000000000000000000000000000000000000000000000000000000000000000000000000000000000af80000000000000000000000002be46ebe002be00000
  .l)
  0x28200000000000000000000000000000000000000000000000000a080000000000000000000000000000000000000a08000028200000a0800a080000282a0a82a0a8200282a0800000000000000000a08000000000000
  .l)
  0x2f7bdef7bdef7bdef7bdef7bdef7bdef7bdef7bdc00bdef7bdef7bdc00bdef7bdef7bdef7bdef7bdef7bdc00002f7bdc00002f7bdef7bdc00bdc00bdef7bdef7bdef7002f7bdc00bdef700000002f7bdef7bdef7bdc00
  (.n .l
  0x2b0000e1344000000037cdc350e2360dd000cf000003480000000ac000364d7378d3380db368d5358d03380000000ac000002b000000ac000ac000002b0ac2b0ac2b0002b0ac000000000000000000ac0000000000000
  .l))
  0xe6000000000000000270a41c00016800000000009b0000000000000000000000000000000000000000000e8000001d07300000000001d400000000000000000000001d872000000000039c771e4781fc00
  (.n (.n .l
  0xc2c0000000000000000000000000000000000000c2c000030b00000c2c00c2c000030bc2c00c2c0000000000000000000000000006cc000000000000
  .l)
  0x295a5695a5695a5695a5695a5695a5695a5695a5400a5695a5695a5400a5695a5695a5695a5695a5695a540000000a540000295a5695a5400a5400a5695a5695a569500295a5400a56950000000295a5695a5695a5400
  (.n .l
  0x21e0000000000000000000000000000000000000000000000000000000000000000000000000000000000000000000000000000000000000000000000000000000000000000000000000000000000000000
  .l))))) 0x210000000000 (.n (.n (.n (.n (.n (.n .l
  0x2c100000000000000000000000000000000000000000000000000000000000000000000000000000000000000000000000000000000000000b040000000000000000000000002c146ec1002c100000
  .l)
  0x2bb00000000000000000000000000000000000000000000000000aec0000000000000000000000000000000000000aec00002bb00000aec00aec00002bbaeebbaeebb002bbaec00000000000000000aec000000000000
  .l)
  0x366d9b66d9b66d9b66d9b66d9b66d9b66d9b66d9800d9b66d9b66d9800d9b66d9b66d9b66d9b66d9b66d980000000d980000366d9b66d9800d9800d9b66d9b66d9b6600366d9800d9b660000000366d9b66d9b66d9800
  (.n .l
  0x390e40e134790e439037cdc350e2360dde40cfe400034b90e4390e4000364d7378d3380db368d5358d03380000000e400000390e4390e4000e4000e4390e4390e439000390e4000e43900000000390e4390e4390e4000
  .l))
  0x270711c00016800000000009b000000000000000000000000000000000000000000000000001d07300000000001d400000000000000000000001d8720000000000000771e4781fc00
  (.n (.n (.n .l
  0xcc40000000000000000000000000000000000000cc4000033100000cc400cc40000331cc400cc4000000000000000000000000000950000000000000
  .l)
  0x36ada8e13476adab6a37cdc350e2360ddda8cfda80034b6adab6ada800364d7378d3380db368d5358d03380000000da8000036adab6ada800da800dab6adab6adab6a0036ada800dab6a000000036adab6adab6ada800
  .l)
  0x2c9b240000000b2400b240000000002c900000002c9002c900000b24000000000000000000000000000b240000000b2400002c900000b2400b2400002c9b26c9b26c9002c9b2400000000000000000b24000000000000
  (.n .l
  0xe1345f60000037cdc350e27c1f21c0cf16800348000009b00000364d7378d3380db368d5358d0338000000000000000001d07300000000001d400000000000000000000001d87200000000007d4771e4781fc00
  .l)))
  0x11c00000000000000000000000000000000000000000000000000000000000000000000000000000000000000000000000000000000000000000000000000000450000000000
  (.n (.n (.n (.n .l
  0x2ae000e1344000000037cdc350e2360dd000cf000003480000000ab800364d7378d3380db368d5358d03380000000ab800002ae00000ab800ab800002aeabaaeabaae002aeab800000000000000000ab8000000000000
  .l)
  0x28600000000000000000000000000000000000000000000000000a180000000000000000000000000000000000000a18000028600000a1800a180000286a1a86a1a8600286a1800000000000000000a18000000000000
  .l)
  0xe1344004480037cdc350e2360dd000cf00000348000000000000364d7378d3380db368d5358d033800000000000000000000000000000000000000000000000000000000000000000000000044c000000000000
  (.n .l
  0xe134400ef80037cdc350e2360dd000cf0000034bbe0000000000364d7378d3380db368d5358d0338000000000000000000000000000000000000000000000000000000000000000000000000ef8000000000000
  .l))
  0x32c00000000000000000000000000000000000000000000000000000000000000000000000000000000000000000000000000000000000000000000000000000000000000000000000000000000000000000000000
  (.n (.n (.n .l
  0xc800000000000000000000000000000000000000c80000032000000c8000c800000320c8000c80000000000000000000000000000000000000000000
  .l)
  0x270a41c00016800000000009b000000000000000000000000000000000000000000000000001d07300000000001d400000000000000000000001d8720000000000000771e4781fc00
  .l)
  0x153000000000000000270a41c00016800000000009b000000000000000000000000000000000000000000000000001d07300000000001d400000000000000000000001d872000000000046c771e4781fc00
  (.n .l
  0x38ee3b8ee3b8ee3b8ee3b8ee3b8ee3b8ee3b8ee3800e3b8ee3b8ee3800e3b8ee3b8ee3b8ee3b8ee3b8ee380000000e38000038ee3b8ee3800e3800e3b8ee3b8ee3b8e0038ee3800e3b8e000000038ee3b8ee3b8ee3800
  .l)))) 0x3400000 (.n (.n (.n (.n (.n .l
  0x23d0000000000000000000000000000000000000000000000000000000000000000000000000000000000000000000000000000000000000000000000000000000000000000000000000000000000000000
  .l)
  0x3b900000000000000000000000000012000000000000000000000000000000000000000000000000000000000000000000000000000000000ee40000000000000000000000003b92d3b9003b900000
  .l)
  0x389e2789e2789e2789e2789e2789e2789e2789e2400e2789e2789e2400e2789e2789e2789e2789e2789e240000000e240000389e2789e2400e2400e2789e2789e278900389e2400e27890000000389e2789e2789e2400
  (.n .l
  0x3ac000000000000000eb3aceb000eb00000000003ac00000000000000000000000000000000000000000000000000eb3ac0000000000eb00000000000000000000000eb3ac000000000046faceb3aceb000
  .l))
  0x273000000000000000000000000000000000000000000000000009cc00000000000000000000000000000000000ae9cc0000273000009cc009cc00002739ce739ce73002739cc000000000000000009cc000000000000
  (.n (.n (.n .l
  0xd2c0000000000000000000000000000000000000d2c000034b00000d2c00d2c000034bd2c00d2c000000000000000000000000000980000000000000
  .l)
  0x355d5755d5755d5755d5755d5755d5755d5755d5400d5755d5755d5400d5755d5755d5755d5755d5755d540000000d540000355d5755d5400d5400d5755d5755d575500355d5400d57550000000355d5755d5755d5400
  .l)
  0x270a41c00016800000000009b000000000000000000000000000000000000000000000000001d07300000000001d400000000000000000000001d8720000000000000771e4781fc00
  (.n .l
  0x11c00000000000000000000000000000000000000000000000000000000000000000000000000000000000000000000000000000000000000000000000000000450000000000
  .l))) 0x580000000000 (.n (.n (.n (.n .l
  0x2d50000000000002d5b540000000000000000000000002d500000b540000000000000000000000000000000000000b5400002d500000b5400b5400002d5b56d5b56d5002d5b54000000000000002d5b56d5002d500000
  .l)
  0x36edb8e13476edbb6e37cdc350e2360dddb8cfdb80034b6edbb6edb800364d7378d3380db368d5358d03380000000db8000036edbb6edb800db800dbb6edbb6edbb6e0036edb800dbb6e000000036edbb6edbb6edb800
  .l)
  0xbb800000000000000000000000000000000000000000000000000000000000000000000000000000000000000000000000000000000000000000000000000
  (.n .l
  0x3b600000000000000000000000000000000000000000000000000000000000000000000000000000000000000000000000000000000000000ed80000000000000000000000003b646fb6003b600000
  .l))
  0x29fa7e9fa7e9fa7e9fa7e9fa7e9fa7e9fa7e9fa7c00a7e9fa7e9fa7c00a7e9fa7e9fa7e9fa7e9fa7e9fa7c0000000a7c000029fa7e9fa7c00a7c00a7e9fa7e9fa7e9f0029fa7c00a7e9f000000029fa7e9fa7e9fa7c00
  (.n (.n .l
  0x3b800000000000000000000000000000000000000000000000000000000000000000000000000000000000000000000000000000000000000ee00000000000000000000000003b846fb8003b800000
  .l)
  0x383e0ce134783e0f8337cdc350e2360dde0ccfe0c0034b83e0f83e0c00364d7378d3380db368d5358d03380000000e0c0000383e0f83e0c00e0c00e0f83e0f83e0f8300383e0c00e0f830000000383e0f83e0f83e0c00
  (.n .l
  0x2250000000000000000000000000000000000000000000000000000000000000000000000000000000000000000000000000000000000000000000000000000000000000000000000000000000000000000
  .l))))))
  0x39400000000000000000000000000000000000000000000000000e500000000000000000000000000000000000000e50000039400000e5000e500000394e5394e539400394e5000000000000000000e50000000000000
  (.n (.n (.n (.n (.n (.n (.n .l
  0xc940000000000000000000000000000000000000c94000032500000c9400c940000325c9400c940000000000000000000000000008b4000000000000
  .l)
  0x5a400000000000000000000000000000000000000000000000000000000000000000000000000000000000000000000000000000000000000000000000000000000000000000
  .l)
  0x362d8b62d8b62d8b62d8b62d8b62d8b62d8b62d8800d8b62d8b62d8800d8b62d8b62d8b62d8b62d8b62d880000000d880000362d8b62d8800d8800d8b62d8b62d8b6200362d8800d8b620000000362d8b62d8b62d8800
  (.n .l
  0x28500000000000000000000000000000000000000000000000000a140000000000000000000000000000000000000a14000028500000a1400a140000285a1685a168500285a1400000000000000000a14000000000000
  .l))
  0x2c6b180000000b1800b180000000002c600000002c6002c600000b18000000000000000000000000000b180000000b1800002c600000b1800b1800002c6b1ac6b1ac6002c6b1800000000000000000b18000000000000
  (.n (.n (.n .l
  0xc100000000000000000000000000000000000000c10000030400000c1000c100000304c1000c10000000000000000000000000000940000000000000
  .l)
  0x36fdbce13476fdbf6f37cdc350e2360dddbccfdbc0034b6fdbf6fdbc00364d7378d3380db368d5358d03380000000dbc000036fdbf6fdbc00dbc00dbf6fdbf6fdbf6f0036fdbc00dbf6f000000036fdbf6fdbf6fdbc00
  .l)
  0x10300000168000000000000000000000000000000000000000000000004140000000000000000000000000000000000000000000000000000000000000000000410000000000000
  (.n .l
  0x270a41c00016800000000009b000000000000000000000000000000000000000000000000001d07300000000001d400000000000000000000001d8720000000000000771e4781fc00
  .l))) 0x3f0000000000 (.n (.n (.n (.n .l
  0x2e60000000000002e6b980000000000000000000000002e600000b980000000000000000000000000000000000000b9800002e600000b9800b9800002e6b9ae6b9ae6002e6b98000000000000002e6b9ae6002e600000
  .l)
  0x279000e1344000000037cdc350e2360dd000cf0000034800000009e400364d7378d3380db368d5358d033800000009e40000279000009e4009e400002799e6799e679002799e4000000000000000009e4000000000000
  .l)
  0x11c00000000000000000000000000000000000000000000000000000000000000000000000000000000000000000000000000000000000000000000000000000450000000000
  (.n .l
  0x358d6358d6358d6358d6358d6358d6358d6358d6000d6358d6358d6000d6358d6358d6358d6358d6358d600000000d600000358d6358d6000d6000d6358d6358d635800358d6000d63580000000358d6358d6358d6000
  .l))
  0x270a41c00016800000000009b000000000000000000000000000000000000000000000000001d07300000000001d400000000000000000000001d8720000000000000771e4781fc00
  (.n (.n (.n .l
  0xc200000000000000000000000000000000000000c20000030800000c2000c200000308c2000c200000000000000000000000000009ac000000000000
  .l)
  0x28700000000000000000000000000000000000000000000000000a1c0000000000000000000000000000000000000a1c000028700000a1c00a1c0000287a1e87a1e8700287a1c00000000000000000a1c000000000000
  .l)
  0xe1344000000037cdc350e2360dd000cf000003494b0000000000364d7378d3380db368d5358d0338000000000000000000000000000000000000000000000000000000000000000000000000000000000000000
  (.n .l 0x2d0000000000000 .l)))) 0x0 (.n (.n (.n (.n (.n .l
  0x2d70000000000002d7b5c0000000000000000000000002d700000b5c0000000000000000000000000000000000000b5c00002d700000b5c00b5c00002d7b5ed7b5ed7002d7b5c000000000000002d7b5ed7002d700000
  .l) 0x17700000 .l)
  0x37fdff7fdff7fdff7fdff7fdff7fdff7fdff7fdfc00dff7fdff7fdfc00dff7fdff7fdff7fdff7fdff7fdfc0000000dfc000037fdff7fdfc00dfc00dff7fdff7fdff7f0037fdfc00dff7f000000037fdff7fdff7fdfc00
  (.n .l
  0x1cb00000000000000000000000000000000000000000000000000000000000000000000000000000000000000000000000000000000000000000000000000000
  .l))
  0x2ac00000000000000000000000000000000000000000000000000ab00000000000000000000000000000000000000ab000002ac00000ab000ab000002acab2acab2ac002acab000000000000000000ab0000000000000
  (.n (.n (.n .l
  0xc740000000000000000000000000000000000000c74000031d00000c7400c74000031dc7400c74000000000000000000000000000970000000000000
  .l)
  0x2f2bcaf2bcaf2bcaf2bcaf2bcaf2bcaf2bcaf2bc800bcaf2bcaf2bc800bcaf2bcaf2bcaf2bcaf2bcaf2bc80000000bc800002f2bcaf2bc800bc800bcaf2bcaf2bcaf2002f2bc800bcaf200000002f2bcaf2bcaf2bc800
  .l)
  0x270a41c00016800000000009b000000000000000000000000000000000000000000000000001d07300000000001d400000000000000000000001d8720000000000000771e4781fc00
  (.n .l
  0xe134400f000037cdc350e2360dd000cf0000034bc00000000000364d7378d3380db368d5358d0338000000000000000000000000000000000000000000000000000000000000000000000000f00000000000000
  .l)))
  0x5300000000000000000000000000005400000000000000000000000000000000000000000000000000000000000000000000000000000000000000000000000000000000000000000000000000000
  (.n (.n (.n (.n .l
  0x24a0000000000000000000000000000000000000000000000000000000000000000000000000000000000000000000000000000000000000000000000000000000000000000000000000000000000000000
  .l)
  0x382e08e134782e0b8237cdc350e2360dde08cfe080034b82e0b82e0800364d7378d3380db368d5358d03380000000e080000382e0b82e0800e0800e0b82e0b82e0b8200382e0800e0b820000000382e0b82e0b82e0800
  .l)
  0x48800000000000000000000000000000000000000000000000000000000000000000000000000000000000000000000000000000000000000000000000000
  (.n .l
  0xc8c0000000000000000000000000000000000000c8c000032300000c8c00c8c0000323c8c00c8c00000000000000000000000000077c000000000000
  .l))
  0x298a6298a6298a6298a6298a6298a6298a6298a6000a6298a6298a6000a6298a6298a6298a6298a6298a600000000a600000298a6298a6000a6000a6298a6298a629800298a6000a62980000000298a6298a6298a6000
  (.n (.n .l
  0xce00000000000000000000000000000000000000ce0000033800000ce000ce00000338ce000ce00000000000000000000000000006dc000000000000
  .l)
  0x5880000000000000000000000000000016000000000000000000000000000000000000000000000000000000000000000000000000000000000000000000000000000000000000000584000000000000
  (.n .l
  0x2220000000000000000000000000000000000000000000000000000000000000000000000000000000000000000000000000000000000000000000000000000000000000000000000000000000000000000
  .l))))) 0x2b0000000000 (.n (.n (.n (.n (.n (.n .l 0x2d0000000000000 .l)
  0x5bc000000000000000000000000000000000000000000000000000000000000000000000000000000000000000 .l)
  0x372dcb72dcb72dcb72dcb72dcb72dcb72dcb72dc800dcb72dcb72dc800dcb72dcb72dcb72dcb72dcb72dc80000000dc80000372dcb72dc800dc800dcb72dcb72dcb7200372dc800dcb720000000372dcb72dcb72dc800
  (.n .l
  0x2a8aa2a8aa2a8aa2a8aa2a8aa2a8aa2a8aa2a8aa000aa2a8aa2a8aa000aa2a8aa2a8aa2a8aa2a8aa2a8aa00000000aa000002a8aa2a8aa000aa000aa2a8aa2a8aa2a8002a8aa000aa2a800000002a8aa2a8aa2a8aa000
  .l))
  0xa10000000000000000000000000000000000000000000000000000000000000000000000000000000000000000000000000000000000000000000000000000000000
  (.n (.n (.n .l
  0xe1344000000037cdc350e2360dd000cf0000034800ba40000000364d7378d3380db368d5358d0338000000000000000000000000000000000000000000000000000000000000000000000000000000000000000
  .l)
  0x64800000000000000000000000000000000000000000000000000000000000000000000000000000000000000000000000000000000000000000000000000
  .l)
  0x270711c00016800000000009b000000000000000000000000000000000000000000000000001d07300000000001d400000000000000000000001d8720000000000000771e4781fc00
  (.n .l
  0xe1344000000037cdc350e2360dd000cf0000034800ba00000000364d7378d3380db368d5358d0338000000000000000000000000000000000000000000000000000000000000000000000000000000000000000
  .l))) 0x4e00000 (.n (.n (.n (.n .l
  0xc980000000000000000000000000000000000000c98000032600000c9800c980000326c9800c98000000000000000000000000000918000000000000
  .l)
  0x27b000e1344000000037cdc350e2360dd000cf0000034800000009ec00364d7378d3380db368d5358d033800000009ec000027b000009ec009ec000027b9ee7b9ee7b0027b9ec000000000000000009ec000000000000
  .l)
  0x39800000000000000000000000000039800000000000000000000000000000000000000000000000000000000000000000000000000000000000000000000000000000000000000000000000000000
  (.n .l
  0x11c00000000000000000000000000000000000000000000000000000000000000000000000000000000000000000000000000000000000000000000000000000450000000000
  .l))
  0x2b1000e1344000000037cdc350e2360dd000cf000003480000000ac400364d7378d3380db368d5358d03380000000ac400002b100000ac400ac400002b1ac6b1ac6b1002b1ac400000000000000000ac4000000000000
  (.n (.n (.n .l
  0xc280000000000000000000000000000000000000c28000030a00000c2800c28000030ac2800c28000000000000000000000000000000000000000000
  .l)
  0x11c00000000000000000000000000000000000000000000000000000000000000000000000000000000000000000000000000000000000000000000000000000450000000000
  .l)
  0x29da769da769da769da769da769da769da769da7400a769da769da7400a769da769da769da769da769da740000000a74000029da769da7400a7400a769da769da769d0029da7400a769d000000029da769da769da7400
  (.n .l
  0xe1346150000037cdc350e27c1f21c0cf16800348000009b00000364d7378d3380db368d5358d0338000000000000000001d07300000000001d400000000000000000000001d872000000000085c771e4781fc00
  .l))))
  0x2ad00000000000000000000000000000000000000000000000000ab40000000000000000000000000000000000000ab400002ad00000ab400ab400002adab6adab6ad002adab400000000000000000ab4000000000000
  (.n (.n (.n (.n (.n .l
  0xe1347860000037cdc350e2360dde18cfe1800348000038600000364d7378d3380db368d5358d033800000000000000000e1b860000000000e180000000000000000000000e1b860000000000e1b86e1b86e1800
  .l)
  0x2f5bd6f5bd6f5bd6f5bd6f5bd6f5bd6f5bd6f5bd400bd6f5bd6f5bd400bd6f5bd6f5bd6f5bd6f5bd6f5bd400002f5bd400002f5bd6f5bd400bd400bd6f5bd6f5bd6f5002f5bd400bd6f500000002f5bd6f5bd6f5bd400
  .l)
  0xfa0000000000000000000000000000000000000000000000000000000000000000000000000000000000000000000000000000000000000000000000000000000000
  (.n .l
  0x7440000000000000000000000000000016000000000000000000000000000000000000000000000000000000000000000000000000000000000000000000000000000000000000000740000000000000
  .l))
  0x27a0000000000000002ec00000000000000000000bc00000000009e800000000000000000000000000000000000009e8000027a000009e8009e8000027a9ea7a9ea7a0027a9e8000000000000000009e8000000000000
  (.n (.n (.n .l
  0xc4c0000000000000000000000000000000000000c4c000031300000c4c00c4c0000313c4c00c4c000000000000000000000000000990000000000000
  .l)
  0x68c0000000000000000000000000000016000000000000000000000000000000000000000000000000000000000000000000000000000000000000000000000000000000000000000690000000000000
  .l)
  0x50c0000000270a41c00016800000000009b000000000000000000000000000000000000000000000000001d07300000000001d400000000000000000000001d8720000000000000771e4781fc00
  (.n .l
  0xc340000000000000000000000000000000000000c34000030d00000c3400c34000030dc3400c3400000000000000000000000000080c000000000000
  .l)))
  0x5e0000000000000000000000000000000000000000000000000000000000000000000000000000000000000000000000000000000000000000000000000000000000
  (.n (.n (.n (.n .l
  0x2d20000000000002d2b480000000000000000000000002d200000b480000000000000000000000000000000000000b4800002d200000b4800b4800002d2b4ad2b4ad2002d2b48000000000000002d2b4ad2002d200000
  .l)
  0x370dc0e134770dc37037cdc350e2360dddc0cfdc00034b70dc370dc000364d7378d3380db368d5358d03380000000dc00000370dc370dc000dc000dc370dc370dc37000370dc000dc3700000000370dc370dc370dc000
  .l)
  0x28f00000000000000000000000000000000000000000000000000a3c0000000000000000000000000000000000000a3c000028f00000a3c00a3c000028fa3e8fa3e8f0028fa3c00000000000000000a3c000000000000
  (.n .l
  0x10300000168000000000000000000000000000000000000000000000004140000000000000000000000000000000000000000000000000000000000000000000410000000000000
  .l))
  0x2a4a92a4a92a4a92a4a92a4a92a4a92a4a92a4a9000a92a4a92a4a9000a92a4a92a4a92a4a92a4a92a4a900000000a9000002a4a92a4a9000a9000a92a4a92a4a92a4002a4a9000a92a400000002a4a92a4a92a4a9000
  (.n (.n .l
  0x3b000000000000000000000000000000000000000000000000000000000000000000000000000000000000000000000000000000000000000ec00000000000000000000000003b046fb0003b000000
  .l)
  0x2b500000000000000000000000000000000000000000000000000ad40000000000000000000000000000000000000ad400002b500000ad400ad400002b5ad6b5ad6b5002b5ad400000000000000000ad4000000000000
  (.n .l
  0x270a41c00016800000000009b000000000000000000000000000000000000000000000000001d07300000000001d400000000000000000000001d8720000000000000771e4781fc00
  .l)))))))
  0x26e0000000000000000000000000000000000000000000000000005000000000000000000000000000000000000000300000010000000440002c000000d03c0703809000080180000000000000000005c000000000000
  (.n (.n (.n (.n (.n (.n (.n (.n .l
  0xc380000000000000000000000000000000000000c38000030e00000c3800c38000030ec3800c380000000000000000000000000008ac000000000000
  .l) 0xe800000000000000000000000000000000000000000000000000000000000059c000000000000 .l)
  0x360d8360d8360d8360d8360d8360d8360d8360d8000d8360d8360d8000d8360d8360d8360d8360d8360d800000000d800000360d8360d8000d8000d8360d8360d836000360d8000d83600000000360d8360d8360d8000
  (.n .l
  0x277000e1344000000037cdc350e2360dd000cf0000034800000009dc00364d7378d3380db368d5358d033800000009dc0000277000009dc009dc00002779de779de77002779dc000000000000000009dc000000000000
  .l))
  0x27e000000000000000190000000000000000000006500000000009f800000000000000000000000000000000000009f8000027e000009f8009f8000027e9fa7e9fa7e0027e9f8000000000000000009f8000000000000
  (.n (.n (.n .l
  0xc6c0000000000000000000000000000000000000c6c000031b00000c6c00c6c000031bc6c00c6c000000000000000000000000000938000000000000
  .l)
  0x270a41c00016800000000009b000000000000000000000000000000000000000000000000001d07300000000001d400000000000000000000001d8720000000000000771e4781fc00
  .l)
  0x12a0000000000000000000000000000000000000000000000000000000000000000000000000000000000000000000000000000000000000000000000000000000000
  (.n .l
  0x37ade8e13477adeb7a37cdc350e2360ddde8cfde80034b7adeb7ade800364d7378d3380db368d5358d03380000000de8000037adeb7ade800de800deb7adeb7adeb7a0037ade800deb7a000000037adeb7adeb7ade800
  .l))) 0x3d0000000000 (.n (.n (.n (.n .l
  0x2400000000000000000000000000000000000000000000000000000000000000000000000000000000000000000000000000000000000000000000000000000000000000000000000000000000000000000
  .l) 0x18200000 .l)
  0x2c342ce1344000000037cdc350e2360dd000cf000003480000000b0c00364d7378d3380db368d5358d03380000000b0c00002c300000b0c00b0c00002c3b0ec3b0ec3002c3b0c00000000000000000b0c000000000000
  (.n .l
  0x357d5f57d5f57d5f57d5f57d5f57d5f57d5f57d5c00d5f57d5f57d5c00d5f57d5f57d5f57d5f57d5f57d5c0000000d5c0000357d5f57d5c00d5c00d5f57d5f57d5f5700357d5c00d5f570000000357d5f57d5f57d5c00
  .l))
  0xc50000000000000000000000000000000000000000000000000000000000000000000000000000000000000000000000000000000000000000000000000000000000
  (.n (.n (.n .l
  0xc7c0000000000000000000000000000000000000c7c000031f00000c7c00c7c000031fc7c00c7c0000000000000000000000000009a4000000000000
  .l)
  0xe134400efc0037cdc350e2360dd000cf0000034bbf0000000000364d7378d3380db368d5358d0338000000000000000000000000000000000000000000000000000000000000000000000000efc000000000000
  .l)
  0x2a6a9aa6a9aa6a9aa6a9aa6a9aa6a9aa6a9aa6a9800a9aa6a9aa6a9800a9aa6a9aa6a9aa6a9aa6a9aa6a980000000a9800002a6a9aa6a9800a9800a9aa6a9aa6a9aa6002a6a9800a9aa600000002a6a9aa6a9aa6a9800
  (.n .l 0x2d0000000000000 .l))))
  0xef00000000000000000000000000000000000000ef000003bc00000ef000ef000003bcef000ef0000000000000000000000000000000000000000000
  (.n (.n (.n (.n (.n .l
  0x2db0000000000002dbb6c0000000000000000000000002db00000b6c0000000000000000000000000000000000000b6c00002db00000b6c00b6c00002dbb6edbb6edb002dbb6c000000000000002dbb6edb002db00000
  .l)
  0x5d80000000000000000000000000000000000000000000000000000000000000000000000000000000000000000000000000000000000000000000000000000000000000000000000000000000000000
  .l)
  0x37ddf77ddf77ddf77ddf77ddf77ddf77ddf77ddf400df77ddf77ddf400df77ddf77ddf77ddf77ddf77ddf40000000df4000037ddf77ddf400df400df77ddf77ddf77d0037ddf400df77d000000037ddf77ddf77ddf400
  (.n .l
  0x270a41c00016800000000009b000000000000000000000000000000000000000000000000001d07300000000001d400000000000000000000001d8720000000000000771e4781fc00
  .l)) 0xac000000000000000000000000000000000000000000000000000000000000 (.n (.n (.n .l
  0xcf80000000000000000000000000000000000000cf8000033e00000cf800cf8000033ecf800cf8000000000000000000000000000968000000000000
  .l)
  0x2f1bc6f1bc6f1bc6f1bc6f1bc6f1bc6f1bc6f1bc400bc6f1bc6f1bc400bc6f1bc6f1bc6f1bc6f1bc6f1bc40000000bc400002f1bc6f1bc400bc400bc6f1bc6f1bc6f1002f1bc400bc6f100000002f1bc6f1bc6f1bc400
  .l)
  0x270a41c00016800000000009b000000000000000000000000000000000000000000000000001d07300000000001d400000000000000000000001d8720000000000000771e4781fc00
  (.n .l
  0x352d4b52d4b52d4b52d4b52d4b52d4b52d4b52d4800d4b52d4b52d4800d4b52d4b52d4b52d4b52d4b52d480000000d480000352d4b52d4800d4800d4b52d4b52d4b5200352d4800d4b520000000352d4b52d4b52d4800
  .l)))
  0x39500000000000000000000000000000000000000000000000000e540000000000000000000000000000000000000e54000039500000e5400e540000395e5795e579500395e5400000000000000000e54000000000000
  (.n (.n (.n (.n .l
  0x2bd00000000000000000000000000000000000000000000000000000000000000000000000000000000000000000000000000000000000000af40000000000000000000000002bd46ebd002bd00000
  .l)
  0x36cdb0e13476cdb36c37cdc350e2360dddb0cfdb00034b6cdb36cdb000364d7378d3380db368d5358d03380000000db0000036cdb36cdb000db000db36cdb36cdb36c0036cdb000db36c000000036cdb36cdb36cdb000
  .l)
  0x3b500000000000000000000000000000000000000000000000000000000000000000000000000000000000000000000000000000000000000ed40000000000000000000000003b52d3b5003b500000
  (.n .l
  0xc300000000000000000000000000000000000000c30000030c00000c3000c30000030cc3000c30000000000000000000000000000774000000000000
  .l))
  0x294a5294a5294a5294a5294a5294a5294a5294a5000a5294a5294a5000a5294a5294a5294a5294a5294a500000000a500000294a5294a5000a5000a5294a5294a529400294a5000a52940000000294a5294a5294a5000
  (.n (.n .l
  0xc880000000000000000000000000000000000000c88000032200000c8800c880000322c8800c880000000000000000000000000006d4000000000000
  .l)
  0x564000000000000270a41c00016800000f70009b000000000000000000000000000000000000000000000000001d07300000000001d400000000000000000000001d8720000000000570771e4781fc00
  (.n .l
  0x2e30000000000002e3b8c0000000000000000000000002e300000b8c0000000000000000000000000000000000000b8c00002e300000b8c00b8c00002e3b8ee3b8ee3002e3b8c000000000000002e3b8ee3002e300000
  .l))))) 0x290000000000 (.n (.n (.n (.n (.n (.n .l
  0x2c000000000000000000000000000000000000000000000000000000000000000000000000000000000000000000000000000000000000000b000000000000000000000000002c046ec0002c000000
  .l)
  0x270a41c00016800000000009b000000000000000000000000000000000000000000000000001d07300000000001d400000000000000000000001d8720000000000000771e4781fc00
  .l)
  0x368da368da368da368da368da368da368da368da000da368da368da000da368da368da368da368da368da00000000da00000368da368da000da000da368da368da36800368da000da3680000000368da368da368da000
  (.n .l
  0x38ce338ce338ce338ce338ce338ce338ce338ce3000e338ce338ce3000e338ce338ce338ce338ce338ce300000000e30000038ce338ce3000e3000e338ce338ce338c0038ce3000e338c000000038ce338ce338ce3000
  .l))
  0xa000000000000000000000000000000000000000000000000000000000000000000000000000000000000000000027c0000000000000000000000000000000000000
  (.n (.n (.n .l
  0x2d40000000000002d4b500000000000000000000000002d400000b500000000000000000000000000000000000000b5000002d400000b5000b5000002d4b52d4b52d4002d4b50000000000000002d4b52d4002d400000
  .l)
  0x270a41c00016800000000009b000000000000000000000000000000000000000000000000001d07300000000001d400000000000000000000001d8720000000000000771e4781fc00
  .l)
  0x11c00000000000000000000000000000000000000000000000000000000000000000000000000000000000000000000000000000000000000000000000000000450000000000
  (.n .l 0x1fa0000000000 .l)))
  0x11c00000000000000000000000000000000000000000000000000000000000000000000000000000000000000000000000000000000000000000000000000000450000000000
  (.n (.n (.n (.n .l
  0xc3c0000000000000000000000000000000000000c3c000030f00000c3c00c3c000030fc3c00c3c000000000000000000000000000910000000000000
  .l)
  0x28a00000000000000000000000000000000000000000000000000a280000000000000000000000000000000000000a28000028a00000a2800a28000028aa2a8aa2a8a0028aa2800000000000000000a28000000000000
  .l) 0x115000000000000000000000000000000000000000000000000000000000000 (.n .l
  0xe13440075c0037cdc350e2360dd000cf00000348000000000000364d7378d3380db368d5358d0338000000000000000000000000000000000000000000000000000000000000000000000000000000000000000
  .l))
  0xcd0000000000000000000000000000000000000000000000000000000000000000000000000000000000000000000000000000000000000000000000000000000000
  (.n (.n (.n .l
  0xc240000000000000000000000000000000000000c24000030900000c2400c240000309c2400c240000000000000000000000000009b4000000000000
  .l)
  0x39ee78e1344000000037cdc350e2360dd000cf000003480000000e7800364d7378d3380db368d5358d03380000000e78000039e00000e7800e78000039ee7b9ee7b9e0039ee7800000000000000000e78000000000000
  .l)
  0xe1347a90000037cdc350e2360ddea4cfea40034958003a900000364d7378d3380db368d5358d033800000000000000000ea7a90000000000ea40000000000000000000000ea7a900000000002d3a9ea7a9ea400
  (.n .l
  0x844000000000000000000000000000000000000000000000000000000000000000000000000000000000000000
  .l))))
  0x1f00000000000000000000000000000000000000000000000000000000000000000000000000000000000000000000000000000001e0000000000
  (.n (.n (.n (.n (.n .l
  0x2e10000000000002e1b840000000000000000000000002e100000b840000000000000000000000000000000000000b8400002e100000b8400b8400002e1b86e1b86e1002e1b84000000000000002e1b86e1002e100000
  .l)
  0x39d0039d0000000000e779de7400e7400000000039d00000000000000000000000000000000000000000000000000e779d0000000000e740000000e74000000000000e779d000000039de779de779de7400
  .l)
  0x270a41c00016800000000009b000000000000000000000000000000000000000000000000001d07300000000001d400000000000000000000001d8720000000000000771e4781fc00
  (.n .l
  0x270a41c00016800000000009b000000000000000000000000000000000000000000000000001d07300000000001d400000000000000000000001d8720000000000000771e4781fc00
  .l))
  0x276000000000000000000000000000000000000000000000000009d800000000000000000000000000000000000009d80000276000009d8009d800002769da769da76002769d8000000000000000009d8000000000000
  (.n (.n (.n .l
  0xccc0000000000000000000000000000000000000ccc000033300000ccc00ccc0000333ccc00ccc000000000000000000000000000988000000000000
  .l)
  0x6840000000000000000000000000000016000000000000000000000000000000000000000000000000000000000000000000000000000000000000000000000000000000000000000680000000000000
  .l)
  0x270a41c00016800000000009b000000000000000000000000000000000000000000000000001d07300000000001d400000000000000000000001d8720000000000000771e4781fc00
  (.n .l
  0xe680000000000000000000000000000039a00000000000000000000000000000000000000000000000000000000000000000000000000000000000000000000000000000000000000000000000000000
  .l))) 0x5c00000 (.n (.n (.n (.n .l
  0x2d10000000000002d1b440000000000000000000000002d100000b440000000000000000000000000000000000000b4400002d100000b4400b4400002d1b46d1b46d1002d1b44000000000000002d1b46d1002d100000
  .l)
  0x38fe3ce13478fe3f8f37cdc350e2360dde3ccfe3c0034b8fe3f8fe3c00364d7378d3380db368d5358d03380000000e3c000038fe3f8fe3c00e3c00e3f8fe3f8fe3f8f0038fe3c00e3f8f000000038fe3f8fe3f8fe3c00
  .l)
  0x278000000000000000000000000000000000000012400000000009e000000000000000000000000000000000000009e00000278000009e0009e000002789e2789e278002789e0000000000000000009e0000000000000
  (.n .l
  0x2fa0000000000000000000000000002fa00000000000000000000000000000000000000000000000000000000000000000000000000000000be80000000000000000000000002fabeafa002fa00000
  .l))
  0x2a1a86a1a86a1a86a1a86a1a86a1a86a1a86a1a8400a86a1a86a1a8400a86a1a86a1a86a1a86a1a86a1a840000000a8400002a1a86a1a8400a8400a86a1a86a1a86a1002a1a8400a86a100000002a1a86a1a86a1a8400
  (.n (.n .l
  0x2f4bd2f4bd2f4bd2f4bd2f4bd2f4bd2f4bd2f4bd000bd2f4bd2f4bd000bd2f4bd2f4bd2f4bd2f4bd2f4bd000002f4bd000002f4bd2f4bd000bd000bd2f4bd2f4bd2f4002f4bd000bd2f400000002f4bd2f4bd2f4bd000
  .l)
  0x28800000000000000000000000000000000000000000000000000a200000000000000000000000000000000000000a20000028800000a2000a200000288a2288a228800288a2000000000000000000a20000000000000
  (.n .l
  0x270a41c00016800000000009b000000000000000000000000000000000000000000000000001d07300000000001d400000000000000000000001d8720000000000000771e4781fc00
  .l))))))
  0x6c0000000000000001f00000000000000000000000000000000000000000000000000000000000000000000000000000000000000000000000000000001e0001d00000
  (.n (.n (.n (.n (.n (.n (.n .l
  0xcec0000000000000000000000000000000000000cec000033b00000cec00cec000033bcec00cec0000000000000000000000000008bc000000000000
  .l)
  0x2b900000000000000000000000000000000000000000000000000ae40000000000000000000000000000000000000ae400002b900000ae400ae400002b9ae6b9ae6b9002b9ae400000000000000000ae4000000000000
  .l)
  0x364d9364d9364d9364d9364d9364d9364d9364d9000d9364d9364d9000d9364d9364d9364d9364d9364d900000000d900000364d9364d9000d9000d9364d9364d936400364d9000d93640000000364d9364d9364d9000
  (.n .l
  0xe8c0000000e8c0000000000000000000000000000000000000000000000000000000000000000000000000000000000000000000000000000000000000000000000000000000000000000000000000000000000000
  .l))
  0x11c00000000000000000000000000000000000000000000000000000000000000000000000000000000000000000000000000000000000000000000000000000450000000000
  (.n (.n (.n .l
  0xd240000000000000000000000000000000000000d24000034900000d2400d240000349d2400d24000000000000000000000000000948000000000000
  .l)
  0x36ddb4e13476ddb76d37cdc350e2360dddb4cfdb40034b6ddb76ddb400364d7378d3380db368d5358d03380000000db4000036ddb76ddb400db400db76ddb76ddb76d0036ddb400db76d000000036ddb76ddb76ddb400
  .l)
  0x27d000e1344000000037cdc350e2360dd000cf0000034800000009f400364d7378d3380db368d5358d033800000009f4000027d000009f4009f4000027d9f67d9f67d0027d9f4000000000000000009f4000000000000
  (.n .l
  0x270a41c00016800000000009b000000000000000000000000000000000000000000000000001d07300000000001d400000000000000000000001d8720000000000000771e4781fc00
  .l))) 0x410000000000 (.n (.n (.n (.n .l
  0xe1344009080037cdc350e2360dd000cf00000348000000000000364d7378d3380db368d5358d0338000000000000000000000000000000000000000000000000000000000000000000000000000000000000000
  .l)
  0x270711c00016800000000009b000000000000000000000000000000000000000000000000001d07300000000001d400000000000000000000001d8720000000000000771e4781fc00
  .l)
  0x440000000000000270a41c00016800000000009b000000000000000000000000000000000000000000000000001d07300000000001d400000000000000000000001d8720000000000438771e4781fc00
  (.n .l
  0xe134400f040037cdc350e2360dd000cf0000034bc10000000000364d7378d3380db368d5358d0338000000000000000000000000000000000000000000000000000000000000000000000000f04000000000000
  .l))
  0x3a0e800000000e8000e800000000003a000000003a0003a000000e80000000000000000000000000000e800000000e8000003a000000e8000e8000003a0e83a0e83a0003a0e8000000000000000000e80000000000000
  (.n (.n (.n .l
  0xd040000000000000000000000000000000000000d04000034100000d0400d040000341d0400d04000000000000000000000000000000000000000000
  .l) 0x14c000000000000000000000000000000000000000000000000000000000000000000000000000 .l)
  0x39c000000000000000e739ce7000e7000000000039c00000000000000000000000000000000000000000014c00000e739c0000000000e700000000000000000000000e739c0000000000e739ce739ce7000
  (.n .l
  0x83c000000000000000000000000000001e800000000000000000000000000000000000000000000000000000000000000000000000000000000000000000000000000000000000000000000000000000
  .l))))
  0x39700000000000000000000000000000000000000000000000000e5c0000000000000000000000000000000000000e5c000039700000e5c00e5c0000397e5f97e5f9700397e5c00000000000000000e5c000000000000
  (.n (.n (.n (.n (.n .l
  0x23a0000000000000000000000000000000000000000000000000000000000000000000000000000000000000000000000000000000000000000000000000000000000000000000000000000000000000000
  .l)
  0x272000000000000000000000000000000000000000000000000009c800000000000000000000000000000000000009c80000272000009c8009c800002729ca729ca72002729c8000000000000000009c8000000000000
  .l)
  0x387e1f87e1f87e1f87e1f87e1f87e1f87e1f87e1c00e1f87e1f87e1c00e1f87e1f87e1f87e1f87e1f87e1c0000000e1c0000387e1f87e1c00e1c00e1f87e1f87e1f8700387e1c00e1f870000000387e1f87e1f87e1c00
  (.n .l
  0x2f0bc2f0bc2f0bc2f0bc2f0bc2f0bc2f0bc2f0bc000bc2f0bc2f0bc000bc2f0bc2f0bc2f0bc2f0bc2f0bc00000000bc000002f0bc2f0bc000bc000bc2f0bc2f0bc2f0002f0bc000bc2f000000002f0bc2f0bc2f0bc000
  .l))
  0x2ce0000000000000000000000000002ce000000000000000000000000000000000000000000000000000000000000002ce000000000000000000000000000000000000000000000000000000000000
  (.n (.n (.n .l
  0xc180000000000000000000000000000000000000c18000030600000c1800c180000306c1800c18000000000000000000000000000978000000000000
  .l)
  0x3a8000000000000000ea3a8ea000ea00000000003a800000000000000000000000000000000000000000000000000ea3a80000000000ea00000000000000000000000ea3a8000000000046fa8ea3a8ea000
  .l)
  0x270a41c00016800000000009b000000000000000000000000000000000000000000000000001d07300000000001d400000000000000000000001d8720000000000000771e4781fc00
  (.n .l
  0x270a41c00016800000000009b000000000000000000000000000000000000000000000000001d07300000000001d400000000000000000000001d8720000000000000771e4781fc00
  .l))) 0x560000000000 (.n (.n (.n (.n .l
  0x2da0000000000002dab680000000000000000000000002da00000b680000000000000000000000000000000000000b6800002da00000b6800b6800002dab6adab6ada002dab68000000000000002dab6ada002da00000
  .l)
  0x391e44e134791e479137cdc350e2360dde44cfe440034b91e4791e4400364d7378d3380db368d5358d03380000000e440000391e4791e4400e4400e4791e4791e479100391e4400e47910000000391e4791e4791e4400
  .l)
  0xbf400000000000000000000000000000000000000000000000000000000000000000000000000000000000000000000000000000000000000000000000000
  (.n .l
  0xce40000000000000000000000000000000000000ce4000033900000ce400ce40000339ce400ce4000000000000000000000000000784000000000000
  .l))
  0x29ca729ca729ca729ca729ca729ca729ca729ca7000a729ca729ca7000a729ca729ca729ca729ca729ca700000000a70000029ca729ca7000a7000a729ca729ca729c0029ca7000a729c000000029ca729ca729ca7000
  (.n (.n .l
  0x2aa00000000000000000000000000000000000000000000000000aa80000000000000000000000000000000000000aa800002aa00000aa800aa800002aaaaaaaaaaaa002aaaa800000000000000000aa8000000000000
  .l)
  0x270a41c00016800000000009b000000000000000000000000000000000000000000000000001d07300000000001d400000000000000000000001d8720000000000590771e4781fc00
  (.n .l
  0x2e70000000000002e7b9c0000000000000000000000002e700000b9c0000000000000000000000000000000000000b9c00002e700000b9c00b9c00002e7b9ee7b9ee7002e7b9c000000000000002e7b9ee7002e700000
  .l))))) 0x2d0000000000 (.n (.n (.n (.n (.n (.n .l
  0x38de378de378de378de378de378de378de378de3400e378de378de3400e378de378de378de378de378de340000000e34000038de378de3400e3400e378de378de378d0038de3400e378d000000038de378de378de3400
  .l)
  0xe1344005c40037cdc350e2360dd000cf00000348000000000000364d7378d3380db368d5358d03380000000000000000000000000000000000000000000000000000000000000000000000005c8000000000000
  .l)
  0x374dd374dd374dd374dd374dd374dd374dd374dd000dd374dd374dd000dd374dd374dd374dd374dd374dd00000000dd00000374dd374dd000dd000dd374dd374dd37400374dd000dd3740000000374dd374dd374dd000
  (.n .l
  0x71400000000000000000000000000000000000000000000000000000000000000000000000000000000000000000000000000000000000000000000000000
  .l))
  0x270a41c00016800000000009b000000000000000000000000000000000000000000000000001d07300000000001d400000000000000000000001d8720000000000000771e4781fc00
  (.n (.n (.n .l
  0xc440000000000000000000000000000000000000c44000031100000c4400c440000311c4400c44000000000000000000000000000958000000000000
  .l)
  0x65000000000000000000000000000000000000000000000000000000000000000000000000000000000000000000000000000000000000000000000000000
  .l)
  0x270a41c00016800000000009b000000000000000000000000000000000000000000000000001d07300000000001d400000000000000000000001d8720000000000000771e4781fc00
  (.n .l
  0xe1347a5e940037cdc350e2360dde94cfe940034ba5003a500000364d7378d3380db368d5358d033800000000000000000e97a50000000000e940000000000000000000000e97a50000000000e97a5e97a5e9400
  .l)))
  0x29200000000000000000000000000000000000000000000000000a480000000000000000000000000000000000000a48000029200000a4800a480000292a4a92a4a9200292a4800000000000000000a48000000000000
  (.n (.n (.n (.n .l
  0xcf00000000000000000000000000000000000000cf0000033c00000cf000cf0000033ccf000cf0000000000000000000000000000920000000000000
  .l)
  0x11c00000000000000000000000000000000000000000000000000000000000000000000000000000000000000000000000000000000000000000000000000000450000000000
  .l)
  0x118000000000000000000000000000000000000000000000000000000000000000000000000000000000000000000000000000000000000002d80000000000000000000000000b9000b8000ba00000
  (.n .l
  0x768000000000000000000000000000000000000000000000000000000000000000000000000000000000000000
  .l))
  0x2a7a9ea7a9ea7a9ea7a9ea7a9ea7a9ea7a9ea7a9c00a9ea7a9ce3a9c00a9ea7a9ea7a9ea7a9ea7a9ea7a9c0000000a9c00002a7a9ea7a9c00a9c00a9ea7a9ea7a9ea7002a7a9c00a9ea700000002a7a9ea7a9ea7a9c00
  (.n (.n .l
  0x270a41c00016800000000009b000000000000000000000000000000000000000000000000001d07300000000001d400000000000000000000001d8720000000000000771e4781fc00
  .l)
  0x299a6699a6699a6699a6699a6699a6699a6699a6400a6699a6699a6400a6699a6699a6699a6699a6699a640000000a640000299a6699a6400a6400a6699a6699a669900299a6400a66990000000299a6699a6699a6400
  (.n .l
  0xe13461b0000037cdc350e2360dd000cf00000348000000000000364d7378d3380db368d5358d0338000000000000000000000000000000000000000000000000000000000000000000000000870000000000000
  .l))))
  0x2cf0000000000000000000000000002cf000000000000000000000000000000000000000000038000000000000000002cf000000000000000000000000000000000000000000000000000000000000
  (.n (.n (.n (.n (.n .l
  0xe13458b0000037cdc350e2360ddea4cfea40034958003a900000364d7378d3380db368d5358d033800000000000000000ea7a90000000000ea40000000000000000000000ea7a900000000002d3a9ea7a9ea400
  .l)
  0x3b100000000000000000000000000017c00000000000000000000000000000000000000000000000000000000000000000000000000000000ec40000000000000000000000003b12d3b1003b100000
  .l)
  0xfe0000000000000000000000000000000000000000000000000000000000000000000000000000000000000000000000000000000000000000000000000000000000
  (.n .l
  0x351d4751d4751d4751d4751d4751d4751d4751d4400d4751d4751d4400d4751d4751d4751d4751d4751d440000000d440000351d4751d4400d4400d4751d4751d475100351d4400d47510000000351d4751d4751d4400
  .l))
  0x270711c00016800000000009b000000000000000000000000000000000000000000000000001d07300000000001d400000000000000000000001d8720000000000000771e4781fc00
  (.n (.n (.n .l
  0xca80000000000000000000000000000000000000ca8000032a00000ca800ca8000032aca800ca8000000000000000000000000000998000000000000
  .l)
  0x6940000000000000000000000000000000000000000000000000000000000000000000000000000000000000000000000000000000000000000000000000000000000000000000000000000000000000
  .l)
  0x270a41c00016800000000009b000000000000000000000000000000000000000000000000001d07300000000001d400000000000000000000001d8720000000000000771e4781fc00
  (.n .l
  0xc900000000000000000000000000000000000000c90000032400000c9000c900000324c9000c90000000000000000000000000000814000000000000
  .l)))
  0x11c00000000000000000000000000000000000000000000000000000000000000000000000000000000000000000000000000000000000000000000000000000450000000000
  (.n (.n (.n (.n .l
  0x2dc0000000000002dcb700000000000000000000000002dc00000b700000000000000000000000000000000000000b7000002dc00000b7000b7000002dcb72dcb72dc002dcb70000000000000002dcb72dc002dc00000
  .l)
  0x376dd8e134776ddb7637cdc350e2360dddd8cfdd80034b76ddb76dd800364d7378d3380db368d5358d03380000000dd80000376ddb76dd800dd800ddb76ddb76ddb7600376dd800ddb760000000376ddb76ddb76dd800
  .l)
  0x270711c00016800000000009b000000000000000000000000000000000000000000000000001d07300000000001d400000000000000000000001d8720000000000000771e4781fc00
  (.n .l
  0xe134400f0c0037cdc350e2360dd000cf00000349c10000000000364d7378d3380db368d5358d0338000000000000000000000000000000000000000000000000000000000000000000000000000000000000000
  .l))
  0x3d8000000000000270a41c00016800000f70009b000000000000000000000000000000000000000000000000001d07300000000001d400000000000000000000001d87200000000003cc771e4781fc00
  (.n (.n .l
  0xbf000000000000000000000000000000000000000000000000000000000000000000000000000000000000000000000000000000000000000000000000000
  .l)
  0x28c00000000000000000000000000000000000000000000000000a300000000000000000000000000000000000000a30000028c00000a3000a30000028ca328ca328c0028ca3000000000000000000a30000000000000
  (.n .l
  0x270a41c00016800000000009b000000000000000000000000000000000000000000000000001d07300000000001d400000000000000000000001d8720000000000000771e4781fc00
  .l)))))))))
/-- goto rows -/
def gotoRows : Bt Nat :=
  (.n (.n (.n (.n (.n (.n (.n (.n (.n (.n .l 0x0 .l) 0x0 .l) 0x0 (.n .l 0x0 .l))
  0x188000000000000000000000000000000000000000000 (.n (.n (.n .l 0x0 .l) 0x0 .l) 0x0 (.n .l 0x0
  .l))) 0x0 (.n (.n (.n (.n .l 0x0 .l)
  0x2d57e000002dc00000000000000000000000000000000000000000000000000000000000000 .l)
  0x4000000102000000010100000000000000000000000003fc0000000000000000000000 (.n .l 0x0 .l)) 0x0 (.n
  (.n (.n .l 0x0 .l)
  0x268992609720c962549424c92244822408f2388d2308122c8a2248821c86214842007d1f0000007e000001ec7a000000000000000000000000000000000000000000000000000000069c6f00000
  .l)
  0x268992609720c962549424c92244822408f2388d2308122c8a2248821c86214842007d1f0000007e000001ec7a000000000000000000000000000000000000000000000000000000051c6f00000
  (.n .l 0x0 .l)))) 0x0 (.n (.n (.n (.n (.n .l 0x0 .l) 0x0 .l) 0x0 (.n .l 0x0 .l)) 0x0 (.n (.n (.n
  .l 0x0 .l) 0x0 .l)
  0x268992609720c962549424c92244822408f2388d2308122c8a2248821c86214842007d1f0000007e000001ec7a00000000000000000000000000000000000000000000000000000004d06f00000
  (.n .l 0x0 .l))) 0x0 (.n (.n (.n (.n .l 0x0 .l) 0x0 .l)
  0x11c0000000000000000000000000000000000000000000000000000000000000000000000000000000000000000000000000000000002d4b2000002dc000000000000000000000000000000002cc000000000000000000000000000
  (.n .l 0x1184476c00000000000000000000000000000000 .l))
  0x268992609720c962549424c92244822408f2388d2308122c8a2248821c86214842007d1f0000007e000001ec7a0000000000000000000000000000000000000000000000000000000394e400000
  (.n (.n .l 0x0 .l) 0x0 (.n .l
  0x268992609720c962549424c92244822408f2388d2308122c8a2248821c86214842007d1f0000007e000001ec7a00000000000000000000000000000000000000000000000000000008746f00000
  .l))))) 0x0 (.n (.n (.n (.n (.n (.n .l 0x0 .l) 0x0 .l) 0x0 (.n .l
  0x70000000000000000000000000000000000268992609720c962549424c92244822408f2388d2308122c8a2248821c86214842007d1f0000007e000001ec7a00000000000000000000000000000000000000000000000000000006fc6f00000
  .l)) 0x0 (.n (.n (.n .l 0x0 .l) 0x0 .l) 0x0 (.n .l
  0x268992609720c962549424c92244822408f2388d2308122c8a2248821c86214842007d1f0000007e000001ec7a00000000000000000000000000000000000000000000000000000007bc6f00000
  .l))) 0x108000000000000 (.n (.n (.n (.n .l 0x0 .l)
  0x268992609720c962549424c92244822408f2388d2308122c8a2248821c86214842007d1f0000007e000001ec7a0000000000000fd00000000000000000000000000018500000000003f06f00000
  .l) 0x0 (.n .l 0x0 .l)) 0x0 (.n (.n (.n .l 0x0 .l) 0x0 .l)
  0x53d4d5380000000000000000000000000000000000000000000000000000 (.n .l
  0x268992609720c962549424c92244822408f2388d2308122c8a2248821c86214842007d1f0000007e000001ec7a00000000000000000000000000000000000000000000000000000008406f00000
  .l)))) 0x0 (.n (.n (.n (.n (.n .l 0x0 .l) 0x0 .l) 0x0 (.n .l
  0x738000000000000000000000000000000000000000000000000000000000000000000000000000000000000000000000000000000000000000000000000000000000000000000000000000000000000000000
  .l)) 0x0 (.n (.n (.n .l 0x0 .l)
  0x268992609720c962549424c92244822408f2388d2308122c8a2248821c86214842007d1f0000007e000001ec7a00000000000000000000000000000000000000000000000000000006706f00000
  .l)
  0x268992609720c962549424c92244822408f2388d2308122c8a2248821c86214842007d1f0000007e000001ec7a00000000000000000000000000000000000000000000000000000004f86f00000
  (.n .l 0x0 .l))) 0x0 (.n (.n (.n (.n .l 0x0 .l)
  0x268992609720c962549424c92244822408f2388d2308122c8a2248821c86214842007d1f0000007e000001ec7a00000000000000000000000000000000000000000000000000000006246f00000
  .l) 0x0 (.n .l 0x0 .l)) 0x0 (.n (.n .l
  0x6e4000000000000000000000000000000000000000000000000000000000000000000000000000000000000000000000000000000000000000000000000000000000000000000000000000000000000000000
  .l) 0x0 (.n .l 0x0 .l)))))) 0x0 (.n (.n (.n (.n (.n (.n (.n .l 0x0 .l) 0x0 .l) 0x0 (.n .l 0x0
  .l))
  0x19800000000000000000000000000000000000000000000000000000000000000000000000000000000000000000000000000000000000000000000000000000670000000000000000000000000000000000000000
  (.n (.n (.n .l 0x0 .l) 0x0 .l)
  0x4000000102000000010100000000000000000000000004ac0000000000000000000000 (.n .l 0x0 .l))) 0x0
  (.n (.n (.n (.n .l 0x0 .l)
  0x268992609720c962549424c92244822408f2388d2308122c8a2248821c86214842007d1f0000007e000001ec7a000000000000000000000000000000000000000000000000000000060c6f00000
  .l)
  0xea00000000003a40000000268992609720c962549424c92244822408f2388d2308122c8a2248821c86214842007d1f0000007e000001ec7a00000000000000000000000000000000000000000000000000000003ac6f00000
  (.n .l 0x0 .l)) 0x0 (.n (.n (.n .l 0x0 .l)
  0x268992609720c962549424c92244822408f2388d2308122c8a2248821c86214842007d1f0000007e000001ec7a00000000000000000000000000000000000000000000000000000006a46f00000
  .l) 0x0 (.n .l
  0x828000000000000000000000000000000000000000000000000000000000000000000000000000000000000000000000000000000000000000000000000000000000000000000000000000000000000000000
  .l)))) 0x0 (.n (.n (.n (.n (.n .l 0x0 .l) 0x0 .l) 0x0 (.n .l
  0x268992609720c962549424c92244822408f2388d2308122c8a2248821c86214842007d1f0000007e000001ec7a00000000000000000000000000000000000000000000000000000007286f00000
  .l)) 0x2b400000000000000000000000000000000000000000000000 (.n (.n (.n .l 0x0 .l)
  0x6600000000664000000000000000000000000000000000000000000000000000000000000000000000000000000000000000000000000000000000000000000000000000000000000000000000000000000000000000000
  .l)
  0x268992609720c962549424c92244822408f2388d2308122c8a2248821c86214842007d1f0000007e000001ec7a00000000000000000000000000000000000000000000000000000004e86f00000
  (.n .l 0x0 .l))) 0x0 (.n (.n (.n (.n .l 0x0 .l) 0x0 .l) 0x0 (.n .l 0x0 .l)) 0x0 (.n (.n .l 0x0
  .l)
  0x15d00000000000000000000000000000000000000000000000000000000000000000000000000000000000000000000000000000000000000000000000000000000000000000000000000000000000000000000000000000000000000000
  (.n .l 0x0 .l))))) 0x0 (.n (.n (.n (.n (.n (.n .l
  0x8c4000000000000000000000000000000000000000000000000000000000000000000000000000000000000000000000000000000000000000000000000000000000000000000000000000000000000000000
  .l)
  0x16c0000000000000000000000000000000000000000000000000000000000000000000000000000000000000000000000000000000000000000000000000000000000000000000000000000000000000000
  .l) 0x0 (.n .l
  0x268992609720c962549424c92244822408f2388d2308122c8a2248821c86214842007d1f0000007e000001ec7a000000000000000000000000000000000000000000000000000000070c6f00000
  .l)) 0x0 (.n (.n (.n .l 0x0 .l) 0x63d906440000000000000000000000000000000000000000000000000000
  .l) 0x0 (.n .l 0x0 .l))) 0x12c000000000000000000000000000000000000000000 (.n (.n (.n (.n .l 0x0
  .l) 0x0 .l) 0x0 (.n .l 0x0 .l)) 0x0 (.n (.n (.n .l 0x0 .l) 0x0 .l) 0x0 (.n .l
  0x268992609720c962549424c92244822408f2388d2308122c8a2248821c86214842007d1f0000007e000001ec7a00000000000000000000000000000000000000000000000000000008486f00000
  .l)))) 0x0 (.n (.n (.n (.n (.n .l 0x0 .l)
  0x2d519000002dc00000000000000000000000000000000468000000000000000000000000000 .l)
  0x268992609720c962549424c92244822408f2388d2308122c8a2248821c86214842007d1f0000007e000001ec7a00000000000000000000000000000000000000000000000000000003e46f00000
  (.n .l 0x0 .l)) 0x0 (.n (.n (.n .l 0x0 .l) 0x0 .l)
  0x268992609720c962549424c92244822408f2388d2308122c8a2248821c86214842007d1f0000007e000001ec7a00000000000000000000000000000000000000000000000000000005086f00000
  (.n .l 0x0 .l))) 0x1184417400000000000000000000000000000000 (.n (.n (.n (.n .l 0x0 .l) 0x0 .l)
  0x268992609720c962549424c92244822408f2388d2308122c8a2248821c86214842007d1f0000007e000001ec7a00000000000000000000000000000000000000000000000000000004946f00000
  (.n .l
  0x268992609720c962549424c92244822408f2388d2308122c8a2248821c86214842007d1f0000007e000001ec7a00000000000000000000000000000000000000000000000000000005186f00000
  .l)) 0x0 (.n (.n .l
  0x2d5ba000002dc00000000000000000000000000000000000000000000000000000000000000 .l) 0x0 (.n .l 0x0
  .l))))))) 0x0 (.n (.n (.n (.n (.n (.n (.n (.n .l 0x0 .l) 0x0 .l) 0x0 (.n .l 0x0 .l)) 0x0 (.n (.n
  (.n .l 0x0 .l) 0x0 .l)
  0x268992609720c962549424c92244822408f2388d2308122c8a2248821c86214842007d1f0000007e000001ec7a0000000000000fd00000000000000000000000000012900000000003f06f00000
  (.n .l 0x0 .l))) 0x0 (.n (.n (.n (.n .l 0x0 .l)
  0x268992609720c962549424c92244822408f2388d2308122c8a2248821c86214842007d1f0000007e000001ec7a00000000000018000000000000000000000000000000000000000006046f00000
  .l) 0x0 (.n .l 0x0 .l)) 0x0 (.n (.n (.n .l 0x0 .l) 0x0 .l)
  0x268992609720c962549424c92244822408f2388d2308122c8a2248821c86214842007d1f0000007e000001ec7a00000000000000000000000000000000000000000000000000000005246f00000
  (.n .l 0x0 .l))))
  0xc400000000000000000000000000000000000000000000000000000000000000000000000000000 (.n (.n (.n
  (.n (.n .l 0x0 .l) 0x0 .l) 0x0 (.n .l
  0x268992609720c962549424c92244822408f2388d2308122c8a2248821c86214842007d1f0000007e000001ec7a00000000000000000000000000000000000000000000000000000007206f00000
  .l)) 0x0 (.n (.n (.n .l 0x0 .l)
  0x268992609720c962549424c92244822408f2388d2308122c8a2248821c86214842007d1f0000007e000001ec7a00000000000000000000000000000000000000000000000000000005506f00000
  .l)
  0x268992609720c962549424c92244822408f2388d2308122c8a2248821c86214842007d1f0000007e000001ec7a00000000000000000000000000000000000000000000000000000004dc6f00000
  (.n .l 0x0 .l))) 0x0 (.n (.n (.n (.n .l 0x0 .l) 0x0 .l)
  0x47c000000000000478000000000000000000000000000000000000000000000000000000000000000000000000000000000000000000000000000000000000000000000000000000000000000000000000000000000000000000
  (.n .l 0x0 .l))
  0x3b00000000000000000000000000000000000000000000000000000000000000000000000000000000000 (.n (.n
  .l 0x0 .l) 0x0 (.n .l
  0xea00000000003a40000000268992609720c962549424c92244822408f2388d2308122c8a2248821c86214842007d1f0000007e000001ec7a000000000000000000000000000000000000000000000000000000087c6f00000
  .l))))) 0x0 (.n (.n (.n (.n (.n (.n .l 0x0 .l) 0x0 .l) 0x0 (.n .l 0x0 .l)) 0x0 (.n (.n (.n .l
  0x0 .l) 0x0 .l) 0x0 (.n .l
  0x268992609720c962549424c92244822408f2388d2308122c8a2248821c86214842007d1f0000007e000001ec7a00000000000000000000000000000000000000000000000000000007e06f00000
  .l))) 0x1184412000000000000000000000000000000000 (.n (.n (.n (.n .l 0x0 .l)
  0x4000000102000000010100000000000000000000000006180000000000000000000000 .l)
  0x45000000000000000000000000000000000000000000000000 (.n .l
  0x268992609720c962549424c92244822408f2388d2308122c8a2248821c86214842007d1f0000007e000001ec7a00000000000000000000000000000000000000000000000000000007586f00000
  .l))
  0x268992609720c962549424c92244822408f2388d2308122c8a2248821c86214842007d1f0000007e000001ec7a00000000000006e000000000000000000000000000000000cc000001b46f00000
  (.n (.n (.n .l 0x0 .l)
  0x268992609720c962549424c92244822408f2388d2308122c8a2248821c86214842007d1f0000007e000001ec7a00000000000000000000000000000000000000000000000000000006b06f00000
  .l)
  0x268992609720c962549424c92244822408f2388d2308122c8a2248821c86214842007d1f0000007e000001ec7a00000000000000000000000000000000000000000000000000000005506f00000
  (.n .l 0x0 .l)))) 0x0 (.n (.n (.n (.n (.n .l 0x0 .l)
  0x5e8000000000000000000000000000000000000000000000000000000000000000000000000000000000000000000000000000000000000000000000000000000000000000000000000000000000000000000
  .l) 0x0 (.n .l 0x0 .l))
  0xaf0000000000000002c00000000000000000000000000000000000000000000000000000000000000000000000000000000000000002d4b2000002dc000000000000000000000000000000002cc000000000000000000000000000
  (.n (.n (.n .l 0x0 .l)
  0x19d00000000000000000000000000000000000000000000000000000000000000000000000000000000000000000000000000000000000000000000000000000000000000000000000000000000000000000000000000000000000000000
  .l)
  0x268992609720c962549424c92244822408f2388d2308122c8a2248821c86214842007d1f0000007e000001ec7a00000000000000000000000000000000000000000000000000000005006f00000
  (.n .l
  0x268992609720c962549424c92244822408f2388d2308122c8a2248821c86214842007d1f0000007e000001ec7a00000000000000000000000000000000000000000000000000000008046f00000
  .l))) 0x1640000000000000000000000000000000000000000000000000000000000000000000 (.n (.n (.n (.n
  .l 0x0 .l) 0x0 .l) 0x0 (.n .l 0x0 .l)) 0x0 (.n (.n .l 0x0 .l)
  0x268992609720c962549424c92244822408f2388d2308122c8a2248821c86214842007d1f0000007e000001ec7a0000000000000fd00000000000000000000000000016500000000003f06f00000
  (.n .l 0x0 .l)))))) 0x0 (.n (.n (.n (.n (.n (.n (.n .l 0x0 .l) 0x0 .l) 0x0 (.n .l 0x0 .l)) 0x0
  (.n (.n (.n .l 0x0 .l) 0x0 .l)
  0x268992609720c962549424c92244822408f2388d2308122c8a2248821c86214842007d1f0000007e000001ec7a00000000000000000000000000000000000000000000000000000004b46f00000
  (.n .l
  0x268992609720c962549424c92244822408f2388d2308122c8a2248821c86214842007d1f0000007e000001ec7a00000000000000000000000000000000000000000000000000000007b46f00000
  .l))) 0x0 (.n (.n (.n (.n .l 0x0 .l) 0x0 .l) 0x1184443400000000000000000000000000000000 (.n .l
  0x268992609720c962549424c92244822408f2388d2308122c8a2248821c86214842007d1f0000007e000001ec7a00000000000000000000000000000000000000000000000000000007546f00000
  .l)) 0xc80000000000000000000000000000000000000000 (.n (.n (.n .l 0x0 .l) 0x0 .l) 0x0 (.n .l
  0x834000020c000000020e00000000000000000000000000000000000000000000000000 .l)))) 0x0 (.n (.n (.n
  (.n (.n .l 0x0 .l) 0x0 .l) 0x0 (.n .l
  0x268992609720c962549424c92244822408f2388d2308122c8a2248821c86214842007d1f0000007e000001ec7a00000000000000000000000000000000000000000000000000000007346f00000
  .l)) 0x0 (.n (.n (.n .l 0x0 .l)
  0x668000000000000000000000000000000000000000000000000000000000000000000000000000000000000000000000000000000000000000000000000000000000000000000000000000000000000000000
  .l)
  0x268992609720c962549424c92244822408f2388d2308122c8a2248821c86214842007d1f0000007e000001ec7a00000000000000000000000000000000000000000000000000000004f06f00000
  (.n .l 0x0 .l))) 0x0 (.n (.n (.n (.n .l 0x0 .l) 0x0 .l) 0x0 (.n .l 0x0 .l)) 0x0 (.n (.n .l 0x0
  .l) 0x0 (.n .l 0x0 .l))))) 0x0 (.n (.n (.n (.n (.n (.n .l
  0x8cc000000000000000000000000000000000000000000000000000000000000000000000000000000000000000000000000000000000000000000000000000000000000000000000000000000000000000000
  .l) 0x0 .l) 0x0 (.n .l
  0x7100000000000000000000000000000000000000000000000000000000000000000000000000000000000000000000000000000000000000000000000000000000000000000000000000000000000000000000000000000
  .l)) 0x0 (.n (.n (.n .l 0x0 .l) 0x0 .l)
  0x268992609720c962549424c92244822408f2388d2308122c8a2248821c86214842007d1f0000007e000001ec7a00000000000000000000000000000000000000000000000000000004c86f00000
  (.n .l 0x0 .l))) 0x0 (.n (.n (.n (.n .l 0x0 .l) 0x0 .l) 0x0 (.n .l 0x0 .l)) 0x0 (.n (.n .l 0x0
  .l) 0x0 (.n .l
  0x268992609720c962549424c92244822408f2388d2308122c8a2248821c86214842007d1f0000007e000001ec7a00000000000000000000000000000000000000000000000000000008606f00000
  .l)))) 0x0 (.n (.n (.n (.n (.n .l 0x0 .l) 0x0 .l)
  0x268992609720c962549424c92244822408f2388d2308122c8a2248821c86214842007d1f0000007e000001ec7a0000000000000fd0000000000000000000000000000fb00000000003f06f00000
  (.n .l 0x0 .l))
  0x268992609720c962549424c92244822408f2388d2308122c8a2248821c86214842007d1f0000007e000001ec7a000000000000000000000000000000000bd0000000000000000000028c6f00000
  (.n (.n (.n .l 0x0 .l) 0x0 .l)
  0x268992609720c962549424c92244822408f2388d2308122c8a2248821c86214842007d1f0000007e000001ec7a00000000000000000000000000000000000000000000000000000005146f00000
  (.n .l 0x0 .l))) 0x1184418000000000000000000000000000000000 (.n (.n (.n (.n .l 0x0 .l) 0x0 .l)
  0x0 (.n .l 0x0 .l)) 0x0 (.n (.n .l 0x0 .l)
  0x4000000102000000010100000000000000000000000005980000000000000000000000 (.n .l 0x0 .l))))))))
  0x4800000000000000000000000000300000000000000000000000000000000000000000000000000000000000000000000000000a04c00000000000000000000000000000000000000000000000000000000000000000000000001002
  (.n (.n (.n (.n (.n (.n (.n (.n (.n .l 0x0 .l) 0x0 .l) 0x0 (.n .l 0x0 .l))
  0x63000000000000000000000000000000000000000000000 (.n (.n (.n .l
  0x268992609720c962549424c92244822408f2388d2308122c8a2248821c86214842007d1f0000007e000001ec7a00000000000000000000000000000000000000000000000000000009346f00000
  .l) 0x0 .l) 0x0 (.n .l
  0x268992609720c962549424c92244822408f2388d2308122c8a2248821c86214842007d1f0000007e000001ec7a00000000000000000000000000000000000000000000000000000007a86f00000
  .l))) 0x0 (.n (.n (.n (.n .l 0x0 .l) 0x0 .l)
  0x41c0000109000000010800000000000000000000001060000000000000000000000000 (.n .l 0x0 .l)) 0x0 (.n
  (.n (.n .l 0x0 .l) 0x0 .l)
  0x268992609720c962549424c92244822408f2388d2308122c8a2248821c86214842007d1f0000007e000001ec7a00000000000000000000000000000000000000000000000000000005206f00000
  (.n .l 0x0 .l)))) 0xbc000000000000 (.n (.n (.n (.n (.n .l
  0x268992609720c962549424c92244822408f2388d2308122c8a2248821c86214842007d1f0000007e000001ec7a00000000000000000000000000000000000000000000000000000008d06f00000
  .l) 0x0 .l) 0x0 (.n .l 0x0 .l))
  0x268992609720c962549424c92244822408f2388d2308122c8a2248821c86214842007d1f0000007e000001ec7a00000000000000000000000000000000000000000000000000000002a46f00000
  (.n (.n (.n .l 0x0 .l) 0x0 .l)
  0x268992609720c962549424c92244822408f2388d2308122c8a2248821c86214842007d1f0000007e000001ec7a00000000000000000000000000000000000000000000000000000004d46f00000
  (.n .l 0x0 .l))) 0x0 (.n (.n (.n (.n .l 0x0 .l) 0x0 .l) 0x0 (.n .l 0x0 .l))
  0xea00000000003a40000000268992609720c962549424c92244822408f2388d2308122c8a2248821c86214842007d1f0000007e000001ec7a00000000000000000000000000000000000000000000000000000003ac6f00000
  (.n (.n .l 0x0 .l) 0x0 (.n .l 0x0 .l))))) 0x0 (.n (.n (.n (.n (.n (.n .l 0x0 .l) 0x0 .l) 0x0 (.n
  .l 0x0 .l))
  0x268992609720c962549424c92244822408f2388d2308122c8a2248821c86214842007d1f0000007e000001ec7a00000000000006e0000000000000000000000000000000006c000001b46f00000
  (.n (.n (.n .l 0x0 .l) 0x0 .l) 0x0 (.n .l
  0x268992609720c962549424c92244822408f2388d2308122c8a2248821c86214842007d1f0000007e000001ec7a00000000000000000000000000000000000000000000000000000007d06f00000
  .l))) 0x1184410c00000000000000000000000000000000 (.n (.n (.n (.n .l 0x0 .l) 0x0 .l) 0x0 (.n .l
  0x0 .l))
  0xca00000000000000000000000000000000000000000000000000000000000000000000000000000000000000000000000000000000000000000000000000000000000000000000000000000000000000000000000000
  (.n (.n (.n .l 0x0 .l)
  0x268992609720c962549424c92244822408f2388d2308122c8a2248821c86214842007d1f0000007e000001ec7a00000000000000000000000000000000000000000000000000000006ac6f00000
  .l)
  0x15200000000000000000000268992609720c962549424c92244822408f2388d2308122c8a2248821c86214842007d1f0000007e000001ec7a00000000000000000000000000000000000000000000000000000003ac6f00000
  (.n .l 0x0 .l)))) 0x0 (.n (.n (.n (.n (.n .l 0x0 .l)
  0x5e00000000000005e4000000000000000000000000000000000000000000000000000000000000000000000000000000000000000000000000000000000000000000000000000000000000000000000000000000000000000000
  .l) 0x0 (.n .l 0x0 .l)) 0x0 (.n (.n (.n .l 0x0 .l) 0x0 .l)
  0x268992609720c962549424c92244822408f2388d2308122c8a2248821c86214842007d1f0000007e000001ec7a00000000000000000000000000000000000000000000000000000004fc6f00000
  (.n .l 0x1184480000000000000000000000000000000000 .l))) 0x0 (.n (.n (.n (.n .l 0x0 .l) 0x0 .l)
  0x0 (.n .l 0x0 .l)) 0x0 (.n (.n .l 0x0 .l) 0x0 (.n .l 0x0 .l)))))) 0x0 (.n (.n (.n (.n (.n (.n
  (.n .l 0x0 .l) 0x0 .l) 0x0 (.n .l 0x0 .l)) 0x0 (.n (.n (.n .l 0x0 .l) 0x0 .l)
  0x41c00001090000000108000000000000000000000012c0000000000000000000000000 (.n .l
  0x268992609720c962549424c92244822408f2388d2308122c8a2248821c86214842007d1f0000007e000001ec7a00000000000000000000000000000000000000000000000000000007b06f00000
  .l))) 0x0 (.n (.n (.n (.n .l 0x0 .l) 0x0 .l) 0x1184443000000000000000000000000000000000 (.n .l
  0x0 .l))
  0x268992609720c962549424c92244822408f2388d2308122c8a2248821c86214842007d1f0000007e000001ec7a000000000000000000000000000000000000000000000000000000031c6f00000
  (.n (.n (.n .l 0x0 .l) 0x0 .l) 0x0 (.n .l
  0x82c000000000000000000000000000000000000000000000000000000000000000000000000000000000000000000000000000000000000000000000000000000000000000000000000000000000000000000
  .l)))) 0x0 (.n (.n (.n (.n (.n .l 0x0 .l) 0x0 .l) 0x0 (.n .l 0x0 .l)) 0x0 (.n (.n (.n .l 0x0 .l)
  0x0 .l)
  0x268992609720c962549424c92244822408f2388d2308122c8a2248821c86214842007d1f0000007e000001ec7a00000000000000000000000000000000000000000000000000000004ec6f00000
  (.n .l 0x0 .l)))
  0x1480000000000000000000000000000000000000000000000000000000000000000000000000000000000000000000000000000000000000000000000000000000000000000000000000000000000000
  (.n (.n (.n (.n .l 0x0 .l) 0x0 .l) 0x0 (.n .l 0x0 .l)) 0x0 (.n (.n .l 0x0 .l) 0x0 (.n .l 0x0
  .l))))) 0x0 (.n (.n (.n (.n (.n (.n .l
  0x8c8000000000000000000000000000000000000000000000000000000000000000000000000000000000000000000000000000000000000000000000000000000000000000000000000000000000000000000
  .l) 0x0 .l) 0x0 (.n .l 0x0 .l)) 0x0 (.n (.n (.n .l 0x0 .l) 0x0 .l)
  0x268992609720c962549424c92244822408f2388d2308122c8a2248821c86214842007d1f0000007e000001ec7a00000000000006e00000000000000000000000000000000131000001b46f00000
  (.n .l 0x0 .l))) 0x4d000000000000000000000000000000000000000000000 (.n (.n (.n (.n .l 0x0 .l)
  0x0 .l) 0x0 (.n .l 0x1184476000000000000000000000000000000000 .l)) 0x0 (.n (.n (.n .l 0x0 .l)
  0x118446bc00000000000000000000000000000000 .l) 0x0 (.n .l
  0x268992609720c962549424c92244822408f2388d2308122c8a2248821c86214842007d1f0000007e000001ec7a00000000000000000000000000000000000000000000000000000008586f00000
  .l)))) 0x0 (.n (.n (.n (.n (.n .l 0x0 .l) 0x0 .l) 0x0 (.n .l 0x0 .l)) 0x0 (.n (.n (.n .l 0x0 .l)
  0x0 .l)
  0x268992609720c962549424c92244822408f2388d2308122c8a2248821c86214842007d1f0000007e000001ec7a00000000000000000000000000000000000000000000000000000005106f00000
  (.n .l 0x0 .l))) 0x0 (.n (.n (.n (.n .l 0x0 .l) 0x0 .l) 0x0 (.n .l
  0x79000001e300000001e500000000000000000000000000000000000000000000000000 .l)) 0x0 (.n (.n .l 0x0
  .l) 0x0 (.n .l
  0x268992609720c962549424c92244822408f2388d2308122c8a2248821c86214842007d1f0000007e000001ec7a00000000000000000000000000000000000000000000000000000008a06f00000
  .l)))))))
  0x4800000000000000000000000000000000000000000000000000000000000000000000000000000000000000000000000000000a04c00000000000000000000000000000000000000000000000000000000000000000000000005800
  (.n (.n (.n (.n (.n (.n (.n (.n .l 0x0 .l) 0x0 .l) 0x0 (.n .l 0x0 .l)) 0x0 (.n (.n (.n .l 0x0
  .l)
  0x268992609720c962549424c92244822408f2388d2308122c8a2248821c86214842007d1f0000007e000001ec7a00000000000000000000000000000000000000000000000000000006286f00000
  .l) 0x0 (.n .l 0x0 .l))) 0x0 (.n (.n (.n (.n .l 0x0 .l) 0x0 .l)
  0x10a000000000000000000000000000000000000000000000000000000000000000000000000000000000000000000000000000000000000000000000000000000000000000000000000000000000000000000000
  (.n .l 0x0 .l)) 0x0 (.n (.n (.n .l 0x0 .l) 0x0 .l) 0x0 (.n .l
  0x824000000000000000000000000000000000000000000000000000000000000000000000000000000000000000000000000000000000000000000000000000000000000000000000000000000000000000000
  .l)))) 0x0 (.n (.n (.n (.n (.n .l 0x0 .l) 0x0 .l) 0x0 (.n .l
  0x268992609720c962549424c92244822408f2388d2308122c8a2248821c86214842007d1f0000007e000001ec7a00000000000000000000000000000000000000000000000000000007246f00000
  .l)) 0x0 (.n (.n (.n .l 0x0 .l) 0x0 .l)
  0x268992609720c962549424c92244822408f2388d2308122c8a2248821c86214842007d1f0000007e000001ec7a00000000000000000000000000000000000000000000000000000004e46f00000
  (.n .l 0x0 .l))) 0x0 (.n (.n (.n (.n .l 0x0 .l) 0x0 .l)
  0x484000000000000000000000000000000000000000000000000000000000000000000000000000000000000000000000000000000000000000000000000000000000000000000000000000000000000000000
  (.n .l 0x0 .l)) 0x0 (.n (.n .l 0x0 .l)
  0x15b000000000000000000000000000000268992609720c962549424c92244822408f2388d2308122c8a2248821c86214842007d1f0000007e000001ec7a00000000000000000000000000000000000000000000000000000005686f00000
  (.n .l 0x0 .l))))) 0x0 (.n (.n (.n (.n (.n (.n .l 0x0 .l)
  0x268992609720c962549424c92244822408f2388d2308122c8a2248821c86214842007d1f0000007e000001ec7a00000000000000000000000000000000000000000000000000000005ac6f00000
  .l) 0x0 (.n .l 0x0 .l)) 0x0 (.n (.n (.n .l 0x0 .l)
  0x268992609720c962549424c92244822408f2388d2308122c8a2248821c86214842007d1f0000007e000001ec7a00000000000000000000000000000000000000000000000000000006386f00000
  .l) 0x118444c000000000000000000000000000000000 (.n .l 0x0 .l)))
  0x1184412800000000000000000000000000000000 (.n (.n (.n (.n .l 0x0 .l) 0x0 .l) 0x0 (.n .l 0x0
  .l)) 0x0 (.n (.n (.n .l 0x0 .l) 0x0 .l)
  0x558000000055c000000000000000000000000000000000000000000000000000000000000000000000000000000000000000000000000000000000000000000000000000000000000000000000000000000000000000000
  (.n .l 0x0 .l)))) 0xd400000000000000000000000000000000000000000000000 (.n (.n (.n (.n (.n .l 0x0
  .l) 0x0 .l)
  0x268992609720c962549424c92244822408f2388d2308122c8a2248821c86214842007d1f0000007e000001ec7a00000000000000000000000000000000000000000000000000000003e06f00000
  (.n .l
  0x268992609720c962549424c92244822408f2388d2308122c8a2248821c86214842007d1f0000007e000001ec7a000000000000000000000000000000000000000000000000000000073c6f00000
  .l)) 0x0 (.n (.n (.n .l 0x0 .l) 0x0 .l)
  0x268992609720c962549424c92244822408f2388d2308122c8a2248821c86214842007d1f0000007e000001ec7a00000000000000000000000000000000000000000000000000000005046f00000
  (.n .l 0x0 .l))) 0x16c00000000000000000 (.n (.n (.n (.n .l 0x0 .l) 0x0 .l) 0x0 (.n .l 0x0 .l))
  0x0 (.n (.n .l 0x0 .l) 0x0 (.n .l
  0x268992609720c962549424c92244822408f2388d2308122c8a2248821c86214842007d1f0000007e000001ec7a000000000000000000000000000000000000000000000000000000089c6f00000
  .l)))))) 0x70000000000000000000000000000000000001a0000000000 (.n (.n (.n (.n (.n (.n (.n .l 0x0
  .l) 0x0 .l) 0x0 (.n .l 0x0 .l)) 0x118441a400000000000000000000000000000000 (.n (.n (.n .l 0x0
  .l) 0x0 .l) 0x0 (.n .l
  0x268992609720c962549424c92244822408f2388d2308122c8a2248821c86214842007d1f0000007e000001ec7a00000000000000000000000000000000000000000000000000000007b86f00000
  .l))) 0x0 (.n (.n (.n (.n .l 0x0 .l)
  0x268992609720c962549424c92244822408f2388d2308122c8a2248821c86214842007d1f0000007e000001ec7a00000000000006e00000000000000000000000000000000184000001b46f00000
  .l)
  0x268992609720c962549424c92244822408f2388d2308122c8a2248821c86214842007d1f0000007e000001ec7a000000000000000000000000000000000000000000000000000000043c6f00000
  (.n .l 0x0 .l)) 0x0 (.n (.n (.n .l 0x0 .l) 0x0 .l) 0x0 (.n .l 0x0 .l)))) 0x0 (.n (.n (.n (.n (.n
  .l 0x0 .l) 0x0 .l) 0x0 (.n .l 0x0 .l)) 0x0 (.n (.n (.n .l 0x0 .l) 0x0 .l)
  0x268992609720c962549424c92244822408f2388d2308122c8a2248821c86214842007d1f0000007e000001ec7a00000000000000000000000000000000000000000000000000000004f46f00000
  (.n .l
  0x268992609720c962549424c92244822408f2388d2308122c8a2248821c86214842007d1f0000007e000001ec7a00000000000000000000000000000000000000000000000000000007f86f00000
  .l))) 0x0 (.n (.n (.n (.n .l 0x0 .l) 0x0 .l) 0x0 (.n .l 0x0 .l)) 0x0 (.n (.n .l 0x0 .l)
  0x268992609720c962549424c92244822408f2388d2308122c8a2248821c86214842007d1f0000007e000001ec7a000000000000000000000000000000000000000000000000000000058c6f00000
  (.n .l 0x0 .l))))) 0x0 (.n (.n (.n (.n (.n (.n .l 0x0 .l) 0x0 .l) 0x0 (.n .l 0x0 .l))
  0x268992609720c962549424c92244822408f2388d2308122c8a2248821c86214842007d1f0000007e000001ec7a000000000000000000000000000000000a20000000000000000000028c6f00000
  (.n (.n (.n .l 0x0 .l) 0x0 .l)
  0x268992609720c962549424c92244822408f2388d2308122c8a2248821c86214842007d1f0000007e000001ec7a00000000000000000000000000000000000000000000000000000004cc6f00000
  (.n .l 0x0 .l))) 0x0 (.n (.n (.n (.n .l 0x0 .l) 0x1184461c00000000000000000000000000000000 .l)
  0x2d519000002dc00000000000000000000000000000000468000000000000000000000000000 (.n .l 0x0 .l))
  0x0 (.n (.n .l
  0x268992609720c962549424c92244822408f2388d2308122c8a2248821c86214842007d1f0000007e000001ec7a00000000000000000000000000000000000000000000000000000006c46f00000
  .l) 0x0 (.n .l 0x0 .l)))) 0x0 (.n (.n (.n (.n (.n .l
  0x558000000055c000000000000000000000000000000000000000000000000000000000000000000000000000000000000000000000000000000000000000000000000000000000000000000000000000000000000000000
  .l)
  0x5f4000000000000000000000000000000000000000000000000000000000000000000000000000000000000000000000000000000000000000000000000000000000000000000000000000000000000000000
  .l) 0x0 (.n .l 0x0 .l))
  0x268992609720c962549424c92244822408f2388d2308122c8a2248821c86214842007d1f0000007e000001ec7a00000000000006e000000000000000000000000000000000be000001b46f00000
  (.n (.n (.n .l 0x0 .l) 0x0 .l)
  0x268992609720c962549424c92244822408f2388d2308122c8a2248821c86214842007d1f0000007e000001ec7a00000000000000000000000000000000000000000000000000000005186f00000
  (.n .l 0x0 .l))) 0x1184418400000000000000000000000000000000 (.n (.n (.n (.n .l 0x0 .l) 0x0 .l)
  0x268992609720c962549424c92244822408f2388d2308122c8a2248821c86214842007d1f0000007e000001ec7a00000000000006e00000000000000000000000000000000126000001b46f00000
  (.n .l
  0x79c0000000000000000000000000000000000000000000000000000000000000000000000000000000000000000000000000000000000000000000000000000000000000000000000000000000000000000000000000000000000000000000
  .l))
  0xf5000000000000000000000000000000268992609720c962549424c92244822408f2388d2308122c8a2248821c86214842007d1f0000007e000001ec7a00000000000000000000000000000000000000000000000000000003d06f00000
  (.n (.n .l 0x0 .l) 0x0 (.n .l
  0x268992609720c962549424c92244822408f2388d2308122c8a2248821c86214842007d1f0000007e000001ec7a00000000000000000000000000000000000000000000000000000008a46f00000
  .l)))))))))
end Pycep
