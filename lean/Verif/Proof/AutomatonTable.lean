import Verif.Proof.AutomatonSync

/-!
# Tables of pairs of states

The pairs of states that have no word in common, and the pairs that the automaton can be in after the same items. A row is a number
whose bits are the second states. The tables come from a search, and are checked here.
-/

namespace Verif.Auto

/-- Pairs that have no word in common. -/
def rowD : St → Nat
  | .ty (.start) (.union) => 0x1000010000100000000000000000000000000000000000
  | .ty (.start) (.one) => 0x80000000000000400006000060000600004000040000400004000040000400014
  | .ty (.start) (.recKey) => 0x80000000000000000004000040000400000000000000000000000000000000002
  | .ty (.start) (.it) => 0x8000080000800000000000000000000000000000000000
  | .ty (.start) (.pair) => 0x10000100001000000000000000000000000000000000002
  | .ty (.start) (.arg) => 0x20000200002000000000000000000000000000000000000
  | .ty (.start) (.argOpt) => 0x80000800008000000000000000000000000000000000000
  | .ty (.start) (.dict) => 0x10000000000000000100001000010000000000000000000000000000000000000
  | .ty (.start) (.typedef) => 0x8000000000000000000000200002000020000000000000000000000000000000000000
  | .ty (.start) (.callback) => 0x18001a0000000000000000000000400004000040000000000000000000000000000000000000
  | .ty (.start) (.const (.iface)) => 0x820920000000000033ec040002000064800208002080000000000000000000000000000000020000
  | .ty (.start) (.const (.mixin)) => 0x104924000000000000010080004000069000410004100000000000000000000000000000000000000
  | .ty (.start) (.const (.nspace)) => 0x209248000000000000000000008000082000820008200000000000000000000000000000000000000
  | .ty (.start) (.attr (.iface)) => 0x10000000000000000000000000004000040000400000000000000000000000000000000000000
  | .ty (.start) (.attr (.mixin)) => 0x20000000000000000000000000008000080000800000000000000000000000000000000000000
  | .ty (.start) (.attr (.nspace)) => 0x10000100001000000000000000000000000000000000000000
  | .ty (.start) (.op (.iface)) => 0x824800000000000033a4040000000004800200002000000000000000000000000000000000000800
  | .ty (.u) (.union) => 0x100000000000000000000000610000000000000000006000000
  | .ty (.u) (.one) => 0x2000000000000000000000007e0000000000000000007400000
  | .ty (.u) (.recKey) => 0x400000000000000000000000620000000000000000006200002
  | .ty (.u) (.it) => 0x800000000000000000000000120000000000000000000000000
  | .ty (.u) (.pair) => 0x200010000000000000000000000000a0000000000000000000200000
  | .ty (.u) (.arg) => 0x403000000000000006000000000000000000000000670000000000000000004700000
  | .ty (.u) (.var) => 0x403000000000000006000000000000000000000000670000000000000000002700000
  | .ty (.u) (.argOpt) => 0x1400000000000008000000000000000000000000000000000000000000000000000
  | .ty (.u) (.dict) => 0x10000000000010000000000000000000000001000000000000000000000000000
  | .ty (.u) (.typedef) => 0x16280a0000000000000000020000000000000000000000000000000000000000000000000000
  | .ty (.u) (.callback) => 0x1000080000000000000000040000000000000000000000000000000000000000000000000000
  | .ty (.u) (.const (.iface)) => 0x182080000000000000000000000080000000000000000000000240000000000000000002400000000
  | .ty (.u) (.const (.mixin)) => 0x184100000000000000000000000100000000000000000000000480000000000000000004800000000
  | .ty (.u) (.const (.nspace)) => 0x208000000000000000000000000200000000000000000000000800000000000000000008000000000
  | .ty (.u) (.attr (.iface)) => 0x182080000000000000000000000400000000000000000000000248000000000000000002080000000
  | .ty (.u) (.attr (.mixin)) => 0x184100000000000000000000000800000000000000000000000490000000000000000004100000000
  | .ty (.u) (.attr (.nspace)) => 0x208200000000000000000000001000000000000000000000000000000000000000000000000000000
  | .ty (.u) (.op (.iface)) => 0x82080000000000000000000000000000000000000000000000648000000000000000000480000000
  | .ty (.u) (.op (.mixin)) => 0x104100000000000000000000000000000000000000000000000690000000000000000000900000000
  | .ty (.u) (.op (.nspace)) => 0x208200000000000000000000000000000000000000000000000820000000000000000000200000000
  | .ty (.ul) (.union) => 0x600000000000
  | .ty (.ul) (.one) => 0x740000000000
  | .ty (.ul) (.recKey) => 0x200000000620000000002
  | .ty (.ul) (.pair) => 0x20000000000000000000000000000000000200000000020000000000
  | .ty (.ul) (.arg) => 0x1000000000000004000000000000000000000000000000000000000470000000000
  | .ty (.ul) (.var) => 0x3000000000000002000000000000000000000000000000000000000270000000000
  | .ty (.ul) (.argOpt) => 0x400000000000000000000000000000000000000000000000000000000000000000
  | .ty (.ul) (.dict) => 0x10000000000000000000000000000000000000000000000000000000000000000
  | .ty (.ul) (.typedef) => 0x1000000000000000000000000000000000000000000000000000000000000000000000000000
  | .ty (.ul) (.const (.iface)) => 0x2000000000000000000000000000000000000000000000000000000000000000240000000000000
  | .ty (.ul) (.const (.mixin)) => 0x4000000000000000000000000000000000000000000000000000000000000000480000000000000
  | .ty (.ul) (.const (.nspace)) => 0x8000000000000000000000000000000000000000000000000000000000000000800000000000000
  | .ty (.ul) (.attr (.iface)) => 0x80000000000000000000000000000000000000000000000000000000000000208000000000000
  | .ty (.ul) (.attr (.mixin)) => 0x100000000000000000000000000000000000000000000000000000000000000410000000000000
  | .ty (.ul) (.attr (.nspace)) => 0x200000000000000000000000000000000000000000000000000000000000000000000000000000
  | .ty (.ul) (.op (.iface)) => 0x48000000000000
  | .ty (.ul) (.op (.mixin)) => 0x90000000000000
  | .ty (.ul) (.op (.nspace)) => 0x20000000000000
  | .ty (.r) (.union) => 0x100000000000000000061000000000000060000000000000000
  | .ty (.r) (.one) => 0x20000000000000000007e000000000000074000000000000000
  | .ty (.r) (.recKey) => 0x400000000000000000062000000000000062000000000000002
  | .ty (.r) (.it) => 0x800000000000000000012000000000000000000000000000000
  | .ty (.r) (.pair) => 0x2000100000000000000000000a000000000000002000000000000000
  | .ty (.r) (.arg) => 0x403000000000000006000000000000000000067000000000000047000000000000000
  | .ty (.r) (.var) => 0x403000000000000006000000000000000000067000000000000027000000000000000
  | .ty (.r) (.argOpt) => 0x1400000000000008000000000000000000000000000000000000000000000000000
  | .ty (.r) (.dict) => 0x10000000000010000000000000000000100000000000000000000000000000000
  | .ty (.r) (.typedef) => 0x16280a0000000000000000020000000000000000000000000000000000000000000000000000
  | .ty (.r) (.callback) => 0x1000080000000000000000040000000000000000000000000000000000000000000000000000
  | .ty (.r) (.const (.iface)) => 0x182080000000000000000000000080000000000000000024000000000000024000000000000000000
  | .ty (.r) (.const (.mixin)) => 0x184100000000000000000000000100000000000000000048000000000000048000000000000000000
  | .ty (.r) (.const (.nspace)) => 0x208000000000000000000000000200000000000000000080000000000000080000000000000000000
  | .ty (.r) (.attr (.iface)) => 0x182080000000000000000000000400000000000000000024800000000000020800000000000000000
  | .ty (.r) (.attr (.mixin)) => 0x184100000000000000000000000800000000000000000049000000000000041000000000000000000
  | .ty (.r) (.attr (.nspace)) => 0x208200000000000000000000001000000000000000000000000000000000000000000000000000000
  | .ty (.r) (.op (.iface)) => 0x82080000000000000000000000000000000000000000064800000000000004800000000000000000
  | .ty (.r) (.op (.mixin)) => 0x104100000000000000000000000000000000000000000069000000000000009000000000000000000
  | .ty (.r) (.op (.nspace)) => 0x208200000000000000000000000000000000000000000082000000000000002000000000000000000
  | .ty (.l) (.union) => 0x6000000000000000000000
  | .ty (.l) (.one) => 0x14000000000000000000000007400000000140000000000
  | .ty (.l) (.recKey) => 0x6200000000000000000002
  | .ty (.l) (.pair) => 0x20000000000000000000000000000000000200000000000000000000
  | .ty (.l) (.arg) => 0x401000000000000004000000000000000000000000000004700000000000000000000
  | .ty (.l) (.var) => 0x403000000000000002000000000000000000000000000002700000000000000000000
  | .ty (.l) (.argOpt) => 0x1400000000000000000000000000000000000000000000000000000000000000000
  | .ty (.l) (.dict) => 0x10000000000000000000000000000000000000000000000000000000000000000
  | .ty (.l) (.typedef) => 0x16280a0000000000000000000000000000000000000000000000000000000000000000000000
  | .ty (.l) (.callback) => 0x1000080000000000000000000000000000000000000000000000000000000000000000000000
  | .ty (.l) (.const (.iface)) => 0x182080000000000000000000000000000000000000000000000000002400000000000000000000000
  | .ty (.l) (.const (.mixin)) => 0x184100000000000000000000000000000000000000000000000000004800000000000000000000000
  | .ty (.l) (.const (.nspace)) => 0x208000000000000000000000000000000000000000000000000000008000000000000000000000000
  | .ty (.l) (.attr (.iface)) => 0x182080000000000000000000000000000000000000000000000000002080000000000000000000000
  | .ty (.l) (.attr (.mixin)) => 0x184100000000000000000000000000000000000000000000000000004100000000000000000000000
  | .ty (.l) (.attr (.nspace)) => 0x208200000000000000000000000000000000000000000000000000000000000000000000000000000
  | .ty (.l) (.op (.iface)) => 0x2080000000000000000000000000000000000000000000000000000480000000000000000000000
  | .ty (.l) (.op (.mixin)) => 0x4100000000000000000000000000000000000000000000000000000900000000000000000000000
  | .ty (.l) (.op (.nspace)) => 0x8200000000000000000000000000000000000000000000000000000200000000000000000000000
  | .ty (.uid) (.union) => 0x10000000000000000000000000000600000000000000000006100000
  | .ty (.uid) (.one) => 0x740000000000000000007e00000
  | .ty (.uid) (.recKey) => 0x620000000000000000006200002
  | .ty (.uid) (.it) => 0x20000000000000000000000000000000000000000000000001200000
  | .ty (.uid) (.pair) => 0x20000000000000000000000000000020000000000000000000a00000
  | .ty (.uid) (.arg) => 0x401000000000000004000000000000000000000000470000000000000000006700000
  | .ty (.uid) (.var) => 0x403000000000000002000000000000000000000000270000000000000000006700000
  | .ty (.uid) (.argOpt) => 0x1400000000000000000000000000000000000000000000000000000000000000000
  | .ty (.uid) (.dict) => 0x10000000000000000000000000000000000000000000000000000000010000000
  | .ty (.uid) (.typedef) => 0x16280a0000000000000000000000000000000000000000000000000000000000000000000000
  | .ty (.uid) (.callback) => 0x1000080000000000000000000000000000000000000000000000000000000000000000000000
  | .ty (.uid) (.const (.iface)) => 0x182080000000000000000000000000000000000000000000000240000000000000000002400000000
  | .ty (.uid) (.const (.mixin)) => 0x184100000000000000000000000000000000000000000000000480000000000000000004800000000
  | .ty (.uid) (.const (.nspace)) => 0x208000000000000000000000000000000000000000000000000800000000000000000008000000000
  | .ty (.uid) (.attr (.iface)) => 0x182080000000000000000000000000000000000000000000000208000000000000000002480000000
  | .ty (.uid) (.attr (.mixin)) => 0x184100000000000000000000000000000000000000000000000410000000000000000004900000000
  | .ty (.uid) (.attr (.nspace)) => 0x208200000000000000000000000000000000000000000000000000000000000000000000000000000
  | .ty (.uid) (.op (.iface)) => 0x2080000000000000000000000000000000000000000000000048000000000000000006480000000
  | .ty (.uid) (.op (.mixin)) => 0x4100000000000000000000000000000000000000000000000090000000000000000006900000000
  | .ty (.uid) (.op (.nspace)) => 0x8200000000000000000000000000000000000000000000000020000000000000000008200000000
  | .ty (.rid) (.union) => 0x10000000000000000000000060000000000000061000000000000000
  | .ty (.rid) (.one) => 0x7400000000000007e000000000000000
  | .ty (.rid) (.recKey) => 0x62000000000000062000000000000002
  | .ty (.rid) (.it) => 0x20000000000000000000000000000000000000012000000000000000
  | .ty (.rid) (.pair) => 0x2000000000000000000000000200000000000000a000000000000000
  | .ty (.rid) (.arg) => 0x401000000000000004000000000000000000047000000000000067000000000000000
  | .ty (.rid) (.var) => 0x403000000000000002000000000000000000027000000000000067000000000000000
  | .ty (.rid) (.argOpt) => 0x1400000000000000000000000000000000000000000000000000000000000000000
  | .ty (.rid) (.dict) => 0x10000000000000000000000000000000000000000000000100000000000000000
  | .ty (.rid) (.typedef) => 0x16280a0000000000000000000000000000000000000000000000000000000000000000000000
  | .ty (.rid) (.callback) => 0x1000080000000000000000000000000000000000000000000000000000000000000000000000
  | .ty (.rid) (.const (.iface)) => 0x182080000000000000000000000000000000000000000024000000000000024000000000000000000
  | .ty (.rid) (.const (.mixin)) => 0x184100000000000000000000000000000000000000000048000000000000048000000000000000000
  | .ty (.rid) (.const (.nspace)) => 0x208000000000000000000000000000000000000000000080000000000000080000000000000000000
  | .ty (.rid) (.attr (.iface)) => 0x182080000000000000000000000000000000000000000020800000000000024800000000000000000
  | .ty (.rid) (.attr (.mixin)) => 0x184100000000000000000000000000000000000000000041000000000000049000000000000000000
  | .ty (.rid) (.attr (.nspace)) => 0x208200000000000000000000000000000000000000000000000000000000000000000000000000000
  | .ty (.rid) (.op (.iface)) => 0x2080000000000000000000000000000000000000000004800000000000064800000000000000000
  | .ty (.rid) (.op (.mixin)) => 0x4100000000000000000000000000000000000000000009000000000000069000000000000000000
  | .ty (.rid) (.op (.nspace)) => 0x8200000000000000000000000000000000000000000002000000000000082000000000000000000
  | .ty (.recd) (.union) => 0x2000010000100061000010006000000000000000000000000000000000001
  | .ty (.recd) (.one) => 0x2000020007e000020007400000000000000000000000000000000002
  | .ty (.recd) (.recKey) => 0x400066000040006200000000000000000000000000000000006
  | .ty (.recd) (.it) => 0xa000080001a000080000000000000000000000000000000000000008
  | .ty (.recd) (.pair) => 0x12000100001a000100000200000000000000000000000000000000010
  | .ty (.recd) (.arg) => 0x403380000000800006000067000600004700000000000000000000000000000000020
  | .ty (.recd) (.var) => 0x403380000000800006000067000600002700000000000000000000000000000000000
  | .ty (.recd) (.argOpt) => 0x14000000008000080000c0000800000000000000000000000000000000000000080
  | .ty (.recd) (.dict) => 0x1c000000000010000100001000000000000000000000000000000000000000100
  | .ty (.recd) (.typedef) => 0x16280a0000000000002000020000200002000000000000000000000000000000000000000200
  | .ty (.recd) (.callback) => 0x1000080000000000000000040000400004000000000000000000000000000000000000000400
  | .ty (.recd) (.const (.iface)) => 0x182080000000000000000000000080024800008002400000000000000000000000000000000000800
  | .ty (.recd) (.const (.mixin)) => 0x184100000000000000000000000100049000010004800000000000000000000000000000000001000
  | .ty (.recd) (.const (.nspace)) => 0x208000000000000000000000000200082000020008000000000000000000000000000000000002000
  | .ty (.recd) (.attr (.iface)) => 0x182080000000000000000040000400024800040002080000000000000000000000000000000004000
  | .ty (.recd) (.attr (.mixin)) => 0x184100000000000000000080000800049000080004100000000000000000000000000000000008000
  | .ty (.recd) (.attr (.nspace)) => 0x208200000000000000000100001000010000100000000000000000000000000000000000000010000
  | .ty (.recd) (.op (.iface)) => 0x824920000000000033ec040002000064800200000480000000000000000000000000000000020800
  | .ty (.recd) (.op (.mixin)) => 0x104924000000000000010080004000069000400000900000000000000000000000000000000001000
  | .ty (.recd) (.op (.nspace)) => 0x209248000000000000000000008000082000800000200000000000000000000000000000000002000
  | .ty (.gen) (.union) => 0x2000010000100061000600000100000000000000000000000000000000001
  | .ty (.gen) (.one) => 0x2000020007e000740000200000000000000000000000000000000002
  | .ty (.gen) (.recKey) => 0x400066000620000400000000000000000000000000000000006
  | .ty (.gen) (.it) => 0xa000080001a000000000800000000000000000000000000000000008
  | .ty (.gen) (.pair) => 0x12000100001a000020001000000000000000000000000000000000010
  | .ty (.gen) (.arg) => 0x403380000000800006000067000470006000000000000000000000000000000000020
  | .ty (.gen) (.var) => 0x403380000000800006000067000270006000000000000000000000000000000000000
  | .ty (.gen) (.argOpt) => 0x14000000008000080000c0000000008000000000000000000000000000000000080
  | .ty (.gen) (.dict) => 0x1c000000000010000100000000010000000000000000000000000000000000100
  | .ty (.gen) (.typedef) => 0x16280a0000000000002000020000200000000020000000000000000000000000000000000200
  | .ty (.gen) (.callback) => 0x1000080000000000000000040000400000000040000000000000000000000000000000000400
  | .ty (.gen) (.const (.iface)) => 0x182080000000000000000000000080024800240000080000000000000000000000000000000000800
  | .ty (.gen) (.const (.mixin)) => 0x184100000000000000000000000100049000480000100000000000000000000000000000000001000
  | .ty (.gen) (.const (.nspace)) => 0x208000000000000000000000000200082000800000200000000000000000000000000000000002000
  | .ty (.gen) (.attr (.iface)) => 0x182080000000000000000040000400024800208000400000000000000000000000000000000004000
  | .ty (.gen) (.attr (.mixin)) => 0x184100000000000000000080000800049000410000800000000000000000000000000000000008000
  | .ty (.gen) (.attr (.nspace)) => 0x208200000000000000000100001000010000000001000000000000000000000000000000000010000
  | .ty (.gen) (.op (.iface)) => 0x824920000000000033ec040002000064800048002000000000000000000000000000000000020800
  | .ty (.gen) (.op (.mixin)) => 0x104924000000000000010080004000069000090004000000000000000000000000000000000001000
  | .ty (.gen) (.op (.nspace)) => 0x209248000000000000000000008000082000020008000000000000000000000000000000000002000
  | .ty (.d) (.union) => 0x10000000060000610006100000000000000000000000000000000001
  | .ty (.d) (.one) => 0x8200000000740007e0007e00000000000000000000000000000000002
  | .ty (.d) (.recKey) => 0x800000000062000660006600000000000000200000000000000000006
  | .ty (.d) (.it) => 0xa00000000000001a0001a00000000000000000000000000000000008
  | .ty (.d) (.pair) => 0x1200000000020001a0001a00000000000000200000000000000000010
  | .ty (.d) (.arg) => 0x401380000000800004000047000670006700000000000000000000000000000000020
  | .ty (.d) (.var) => 0x4033800000008000020000a7000e7000e700000000000000000000000000000000000
  | .ty (.d) (.argOpt) => 0x1400000000800004000040000800008000000000000000000000000000000000080
  | .ty (.d) (.dict) => 0x5c000000000000000000001000010000000000000000000000000000000000100
  | .ty (.d) (.typedef) => 0x173e9f0000000000002000000000000002000020000000000000000000000000000000000200
  | .ty (.d) (.callback) => 0x1000080000000000000000000000000004000040000000000000000000000000000000000400
  | .ty (.d) (.const (.iface)) => 0x1825820000000000037ec040002000024000248002480000000000000000000000000000000020800
  | .ty (.d) (.const (.mixin)) => 0x184984000000000000010080004000048000490004900000000000000000000000000000000001000
  | .ty (.d) (.const (.nspace)) => 0x209208000000000000000100008000080000820008200000000000000000000000000000000002000
  | .ty (.d) (.attr (.iface)) => 0x1825800000000000037ec040002000020800248002480000000000000000000000000000000024800
  | .ty (.d) (.attr (.mixin)) => 0x184980000000000000010080004000041000490004900000000000000000000000000000000009000
  | .ty (.d) (.attr (.nspace)) => 0x208208000000000000000100000000000000100001000000000000000000000000000000000010000
  | .ty (.d) (.op (.iface)) => 0x2c800000000000037240c0000000004800648006480000000000000000000000000000000001800
  | .ty (.d) (.op (.mixin)) => 0x49000000000000033240c0000000009000690006900000000000000000000000000000000001800
  | .ty (.d) (.op (.nspace)) => 0x9200000000000000000100000000002000820008200000000000000000000000000000000002000
  | .ty (.e) (.union) => 0x10006000000000010000100000000000000000001000000000100000
  | .ty (.e) (.one) => 0x7400000000020000200000000000000000002000000000200000
  | .ty (.e) (.recKey) => 0x6200000000040000400000000000000000004000000000400002
  | .ty (.e) (.it) => 0x20000000000000080000800000000000000000008000000000800000
  | .ty (.e) (.pair) => 0x20000200000000100001000000000000000000010000000001000000
  | .ty (.e) (.arg) => 0x1000000000000004700040000600006000040000400004000060000400006000000
  | .ty (.e) (.var) => 0x300000000080000a7000a0000600006000020000200002000060000200006000000
  | .ty (.e) (.argOpt) => 0x400000000000004000000000800008000000000000000000080000000008000000
  | .ty (.e) (.dict) => 0x10000000000000000000001000010000000000000000000100000000010000000
  | .ty (.e) (.typedef) => 0x1000000000000000000000000000000002000020000000000000000000200000000020000000
  | .ty (.e) (.callback) => 0x4000040000000000000000000400000000040000000
  | .ty (.e) (.const (.iface)) => 0x82082000000000000000000002400000000008000080000000000000000000800000000080000000
  | .ty (.e) (.const (.mixin)) => 0x104104000000000000000000004800000000010000100000000000000000001000000000100000000
  | .ty (.e) (.const (.nspace)) => 0x208208000000000000000000008000000000020000200000000000000000002000000000200000000
  | .ty (.e) (.attr (.iface)) => 0x80080000000000000000000002080000000040000400000000000000000004000000000400000000
  | .ty (.e) (.attr (.mixin)) => 0x100100000000000000000000004100000000080000800000000000000000008000000000800000000
  | .ty (.e) (.attr (.nspace)) => 0x208000000000000000000000000000000100001000000000000000000010000000001000000000
  | .ty (.e) (.op (.iface)) => 0x400000000000003324040000480004800200002000000000000000000000000000000000000800
  | .ty (.e) (.op (.mixin)) => 0x800000000000000000080000900009000400004000000000000000000000000000000000001000
  | .ty (.e) (.op (.nspace)) => 0x1000000000000000000000000200002000800008000000000000000000000000000000000002000
  | .atty (.union) => 0x1000000000000000100001000010000100001000010000000000000000000000000
  | .atty (.one) => 0x10000180001a0001a0001a00018000180001000010000100001000000
  | .atty (.it) => 0x8000080000800000000000000000000000000000000000
  | .atty (.pair) => 0x20000000010000100001000000000000000000000000000000000000
  | .atty (.argOpt) => 0x4030000000000000040000e6000e0000e000000000000000000000000000000000000
  | .atty (.typedef) => 0x33e0dc000000000000000000000200002000020000000000000000000000000000000000000
  | .atty (.attr (.iface)) => 0x1824920000000000033ec000002000064800240002400000000000000000000000000000000020800
  | .atty (.attr (.mixin)) => 0x184924000000000000010000004000069000480004800000000000000000000000000000000001000
  | .atty (.attr (.nspace)) => 0x209000000000000000000000000000092000100001000000000000000000000000000000000000000
  | .unS => 0x10000100000000000000000000000000000000000
  | .ro => 0x82080000000000003380040002000064800200002000000000000000000000000000000000020800
  | .strf => 0x82000000000000003380040000000004800200002000000000000000000000000000000000000800
  | .strfM => 0x104000000000000000000080000000009000400004000000000000000000000000000000000001000
  | .inh => 0x82080000000000003380040002000064800200002000000000000000000000000000000000020800
  | .stat => 0x82080000000000003380040000000004800200002000000000000000000000000000000000000800
  | .ctor => 0x209200000000000336c040000000004800200002000000000000000000000000000000000020800
  | .itr => 0x820920000000000002ec040002000064800200002000000000000000000000000000000000020800
  | .asy => 0x820800000000000035ec040002000064800200002000000000000000000000000000000000020800
  | .asy2 => 0x182080000000000000200000000000024800000000000000000000000000000000000000000000000
  | .asy3 => 0x2000000000000000000000000000000000000000000000000000000000000000000000000000
  | .mpl => 0x1820920000000000022ec040002000064800200002000000000000000000000000000000000020800
  | .stl => 0x1820920000000000012ec040002000064800200002000000000000000000000000000000000020800
  | .dmem => 0x800070000000000000000100001000010000000000000000000000000000000000000
  | .dmem1 => 0x40000000000000000100001000010000000000000000000000000000000000000
  | .dictDef => 0x24000000000010000100001000010000100001000010000100001000010000100
  | .dictVal => 0x54000000000000000000000000000000000000000000000000000000000000000
  | .dictSemi => 0x2c000000000000000100000000000000000000000000000000000000000000000
  | .argS => 0x60000600006000000000000000000000000000000000006
  | .argN => 0x1c00000000000000000060000600006000000000000000000000000000000000000
  | .arg1 => 0x1000000000000000000060000600006000000000000000000000000000000000000
  | .argDef => 0x900000000000008000080000800008000080000800008000080000800008000000
  | .argVal => 0x1500000000000000000000000000000000000000000000000000000000000000000
  | .argEnd => 0x2b000000008100060000e0000e0000e0000e0000e0000e0000e000060000e000000
  | .argVar => 0x1000000000800004000040000600006000040000400004000060000400006000000
  | .eaN => 0xd0000000000000000000000000000000000000000000000000000000000000000000
  | .ea1 => 0x8000000000000000000000000000000000000000000000000000000000000000000
  | .eaEq => 0x80000000000000000000000000000000000000000000000000000000000000000000
  | .ea2 => 0x8000000000000000000000000000000000000000000000000000000000000000000
  | .eaE => 0x28000000000000000000000000000000000000000000000000000000000000000000
  | .idN => 0x400000000000000000000000000000000000000000000000000000000000000000000
  | .idE => 0x200000000000800000000060000600006000060000600006000060000000006000000
  | .enS => 0xa000001000004000000000000000000000000000000000000000000000000000000000000000
  | .enE => 0x800000000000000000000000000000000000000000000000000000000000000000000
  | .doc => 0x1514040000000000002000000000000000000000000000000000000000000000000000000000
  | .def1 => 0x514040000000000002000000000000000000000000000000000000000000000000000000200
  | .cb => 0xf3c1e0000000000002000000000200000000000000000000000000000000000000000000000
  | .cbEq => 0x1e3c9d0000000000000000000000200002000020000200002000020000200000000020000400
  | .ifc => 0x1f2a0bc000000000002000000000200000000000000000000000000000000000000000000000
  | .ifcN => 0x1f16b70000000000002000000000600006000060000600006000060000600000000060000400
  | .ifcI => 0x1e280b0000000000000000000000200000000000000000000000000000000000000000000400
  | .ifcX => 0x1801480000000000000000000000000000000000000000000000000000000000000000000000
  | .ifcB => 0x1000200000000000000000000000000000000000000000000000000000000000000000000000
  | .mix => 0x1e290a0000000000000000000000200000000000000000000000000000000000000000000000
  | .mixB => 0x1800a00000000000000000000000000000000000000000000000000000000000000000000000
  | .par => 0xf3c0c0000000000002000000000200000000000000000000000000000000000000000000000
  | .nsp => 0x1f2a0bc000000000002000000000200000000000000000000000000000000000000000000000
  | .nspB => 0x1f16970000000000002000000000200002000020000200002000020000200000000020000000
  | .dic => 0x1f2a0bc000000000002000000000200000000000000000000000000000000000000000000000
  | .dicN => 0x1f56970000000000002000000000200002000020000200002000020000200000000020000000
  | .dicI => 0x18a0000000000000000000000000000000000000000000000000000000000000000000000000
  | .dicB => 0x1040000000000000000000000000000000000000000000000000000000000000000000000000
  | .enu => 0xe3e0dc000000000002000000000200000000000000000000000000000000000000000000000
  | .enuB => 0x1d3e9f0000000000002000000000200002000020000200002000020000200000000020000000
  | .inc1 => 0xb3e9fc000000000000000000000200002000020000200002000020000200000000020000000
  | .inc2 => 0x177fbf0000000000000000000000000000000000000000000000000000000000000000000400
  | .docSemi => 0xafdfe4000000000000000020000600006000060000600006000060000600002000060000400
  | .mem (.iface) => 0x2080000000800003980040000080000800200002000000000000000000000000000000000000800
  | .mem (.mixin) => 0x4100000000000000000080000100001000400004000000000000000000000000000000000001000
  | .mem (.nspace) => 0x9200000000800000000000001200012000800008000000000000000000000000000000000002000
  | .mem1 (.iface) => 0x3180040000000000000200002000000000000000000000000000000000004800
  | .mem1 (.mixin) => 0x80000000000000400004000000000000000000000000000000000009000
  | .mem1 (.nspace) => 0x1000000000000000000000000000000000800008000000000000000000000000000000000002000
  | .semi (.iface) => 0x924020000000000037e404000048002d800248002480024800248002480024800040002480020800
  | .semi (.mixin) => 0x12480400000000000000008000090004d800490004900049000490004900049000080004900001000
  | .semi (.nspace) => 0x49008000000000000000000001200092000900009000090000900009000090000100009000002000
  | .roA (.iface) => 0x182080000000000000000040002000024800200002000000000000000000000000000000000020000
  | .roA (.mixin) => 0x104100000000000000000080004000069000400004000000000000000000000000000000000001000
  | .roA (.nspace) => 0x208248000000000000000100008000082000800008000000000000000000000000000000000002000
  | .constEq (.iface) => 0x904820000000000037ec040000080024800248002480024800248002480024800008002480020800
  | .constEq (.mixin) => 0x120904000000000000010080000100049000490004900049000490004900049000010004900001000
  | .constEq (.nspace) => 0x241208000000000000000100000200092000920009200092000920009200092000020009200002000
  | .constVal (.iface) => 0x2080000000000000000000000000000000000000000000000000000000000000000000000000000
  | .constVal (.mixin) => 0x4100000000000000000000000000000000000000000000000000000000000000000000000000000
  | .constVal (.nspace) => 0x8200000000000000000000000000000000000000000000000000000000000000000000000000000
  | .opArgs (.iface) => 0x248000000000000376c0c000048000d8002d8002d8000d8000d8000d8002d800000002d80020800
  | .opArgs (.mixin) => 0x4d000000000000034100c000090000d8004d8004d8000d8000d8000d8004d800000004d80001000
  | .opArgs (.nspace) => 0x9000000000000000000100000200012000920009200012000120001200092000000009200002000
  | _ => 0

/-- Pairs that are reached by the same items. -/
def rowA : St → Nat
  | .ty (.start) (.union) => 0x1
  | .ty (.start) (.one) => 0x2
  | .ty (.start) (.recKey) => 0x4
  | .ty (.start) (.it) => 0x8
  | .ty (.start) (.pair) => 0x10
  | .ty (.start) (.arg) => 0x20
  | .ty (.start) (.argOpt) => 0x80
  | .ty (.start) (.dict) => 0x100
  | .ty (.start) (.typedef) => 0x200
  | .ty (.start) (.callback) => 0x400
  | .ty (.start) (.const (.iface)) => 0x20000000000000000000000000000000000000000000000800
  | .ty (.start) (.const (.mixin)) => 0x40000000000000000000000000000000000000000000001000
  | .ty (.start) (.const (.nspace)) => 0x80000000000000000000000000000000000000000000002000
  | .ty (.start) (.attr (.iface)) => 0x4000
  | .ty (.start) (.attr (.mixin)) => 0x8000
  | .ty (.start) (.attr (.nspace)) => 0x10000
  | .ty (.start) (.op (.iface)) => 0x20000
  | .ty (.u) (.union) => 0x10000000000000000000100000
  | .ty (.u) (.one) => 0x20000000000000000000200000
  | .ty (.u) (.recKey) => 0x40000000000000000000400000
  | .ty (.u) (.it) => 0x80000000000000000000800000
  | .ty (.u) (.pair) => 0x100000000000000000001000000
  | .ty (.u) (.arg) => 0x600000000000000000006000000
  | .ty (.u) (.var) => 0x600000000000000000006000000
  | .ty (.u) (.argOpt) => 0x800000000000000000008000000
  | .ty (.u) (.dict) => 0x1000000000000000000010000000
  | .ty (.u) (.typedef) => 0x2000000000000000000020000000
  | .ty (.u) (.callback) => 0x4000000000000000000040000000
  | .ty (.u) (.const (.iface)) => 0x80000000000000000000000000000000000000000000000000008000000000000000000080000000
  | .ty (.u) (.const (.mixin)) => 0x100000000000000000000000000000000000000000000000000010000000000000000000100000000
  | .ty (.u) (.const (.nspace)) => 0x200000000000000000000000000000000000000000000000000020000000000000000000200000000
  | .ty (.u) (.attr (.iface)) => 0x80000000000000000000000000000000000000000000000000040000000000000000000400000000
  | .ty (.u) (.attr (.mixin)) => 0x100000000000000000000000000000000000000000000000000080000000000000000000800000000
  | .ty (.u) (.attr (.nspace)) => 0x100000000000000000001000000000
  | .ty (.u) (.op (.iface)) => 0x200000000000000000002000000000
  | .ty (.u) (.op (.mixin)) => 0x400000000000000000004000000000
  | .ty (.u) (.op (.nspace)) => 0x800000000000000000008000000000
  | .ty (.ul) (.union) => 0x10000000000
  | .ty (.ul) (.one) => 0x20000000000
  | .ty (.ul) (.recKey) => 0x40000000000
  | .ty (.ul) (.it) => 0x80000000000
  | .ty (.ul) (.pair) => 0x100000000000
  | .ty (.ul) (.arg) => 0x600000000000
  | .ty (.ul) (.var) => 0x600000000000
  | .ty (.ul) (.argOpt) => 0x800000000000
  | .ty (.ul) (.dict) => 0x1000000000000
  | .ty (.ul) (.typedef) => 0x2000000000000
  | .ty (.ul) (.callback) => 0x4000000000000
  | .ty (.ul) (.const (.iface)) => 0x8000000000000
  | .ty (.ul) (.const (.mixin)) => 0x10000000000000
  | .ty (.ul) (.const (.nspace)) => 0x20000000000000
  | .ty (.ul) (.attr (.iface)) => 0x40000000000000
  | .ty (.ul) (.attr (.mixin)) => 0x80000000000000
  | .ty (.ul) (.attr (.nspace)) => 0x100000000000000
  | .ty (.ul) (.op (.iface)) => 0x200000000000000
  | .ty (.ul) (.op (.mixin)) => 0x400000000000000
  | .ty (.ul) (.op (.nspace)) => 0x800000000000000
  | .ty (.r) (.union) => 0x1000000000000001000000000000000
  | .ty (.r) (.one) => 0x2000000000000002000000000000000
  | .ty (.r) (.recKey) => 0x4000000000000004000000000000000
  | .ty (.r) (.it) => 0x8000000000000008000000000000000
  | .ty (.r) (.pair) => 0x10000000000000010000000000000000
  | .ty (.r) (.arg) => 0x60000000000000060000000000000000
  | .ty (.r) (.var) => 0x60000000000000060000000000000000
  | .ty (.r) (.argOpt) => 0x80000000000000080000000000000000
  | .ty (.r) (.dict) => 0x100000000000000100000000000000000
  | .ty (.r) (.typedef) => 0x200000000000000200000000000000000
  | .ty (.r) (.callback) => 0x400000000000000400000000000000000
  | .ty (.r) (.const (.iface)) => 0x80000000000000000000000000000000000000000000000800000000000000800000000000000000
  | .ty (.r) (.const (.mixin)) => 0x100000000000000000000000000000000000000000000001000000000000001000000000000000000
  | .ty (.r) (.const (.nspace)) => 0x200000000000000000000000000000000000000000000002000000000000002000000000000000000
  | .ty (.r) (.attr (.iface)) => 0x80000000000000000000000000000000000000000000004000000000000004000000000000000000
  | .ty (.r) (.attr (.mixin)) => 0x100000000000000000000000000000000000000000000008000000000000008000000000000000000
  | .ty (.r) (.attr (.nspace)) => 0x10000000000000010000000000000000000
  | .ty (.r) (.op (.iface)) => 0x20000000000000020000000000000000000
  | .ty (.r) (.op (.mixin)) => 0x40000000000000040000000000000000000
  | .ty (.r) (.op (.nspace)) => 0x80000000000000080000000000000000000
  | .ty (.l) (.union) => 0x100000000000000000000
  | .ty (.l) (.one) => 0x200000000000000000000
  | .ty (.l) (.recKey) => 0x400000000000000000000
  | .ty (.l) (.it) => 0x800000000000000000000
  | .ty (.l) (.pair) => 0x1000000000000000000000
  | .ty (.l) (.arg) => 0x6000000000000000000000
  | .ty (.l) (.var) => 0x6000000000000000000000
  | .ty (.l) (.argOpt) => 0x8000000000000000000000
  | .ty (.l) (.dict) => 0x10000000000000000000000
  | .ty (.l) (.typedef) => 0x20000000000000000000000
  | .ty (.l) (.callback) => 0x40000000000000000000000
  | .ty (.l) (.const (.iface)) => 0x80000000000000000000000000000000000000000000000000000000080000000000000000000000
  | .ty (.l) (.const (.mixin)) => 0x100000000000000000000000000000000000000000000000000000000100000000000000000000000
  | .ty (.l) (.const (.nspace)) => 0x200000000000000000000000000000000000000000000000000000000200000000000000000000000
  | .ty (.l) (.attr (.iface)) => 0x80000000000000000000000000000000000000000000000000000000400000000000000000000000
  | .ty (.l) (.attr (.mixin)) => 0x100000000000000000000000000000000000000000000000000000000800000000000000000000000
  | .ty (.l) (.attr (.nspace)) => 0x1000000000000000000000000
  | .ty (.l) (.op (.iface)) => 0x2000000000000000000000000
  | .ty (.l) (.op (.mixin)) => 0x4000000000000000000000000
  | .ty (.l) (.op (.nspace)) => 0x8000000000000000000000000
  | .ty (.uid) (.union) => 0x10000000000000000000100000
  | .ty (.uid) (.one) => 0x20000000000000000000200000
  | .ty (.uid) (.recKey) => 0x40000000000000000000400000
  | .ty (.uid) (.it) => 0x80000000000000000000800000
  | .ty (.uid) (.pair) => 0x100000000000000000001000000
  | .ty (.uid) (.arg) => 0x600000000000000000006000000
  | .ty (.uid) (.var) => 0x600000000000000000006000000
  | .ty (.uid) (.argOpt) => 0x800000000000000000008000000
  | .ty (.uid) (.dict) => 0x1000000000000000000010000000
  | .ty (.uid) (.typedef) => 0x2000000000000000000020000000
  | .ty (.uid) (.callback) => 0x4000000000000000000040000000
  | .ty (.uid) (.const (.iface)) => 0x80000000000000000000000000000000000000000000000000008000000000000000000080000000
  | .ty (.uid) (.const (.mixin)) => 0x100000000000000000000000000000000000000000000000000010000000000000000000100000000
  | .ty (.uid) (.const (.nspace)) => 0x200000000000000000000000000000000000000000000000000020000000000000000000200000000
  | .ty (.uid) (.attr (.iface)) => 0x80000000000000000000000000000000000000000000000000040000000000000000000400000000
  | .ty (.uid) (.attr (.mixin)) => 0x100000000000000000000000000000000000000000000000000080000000000000000000800000000
  | .ty (.uid) (.attr (.nspace)) => 0x100000000000000000001000000000
  | .ty (.uid) (.op (.iface)) => 0x200000000000000000002000000000
  | .ty (.uid) (.op (.mixin)) => 0x400000000000000000004000000000
  | .ty (.uid) (.op (.nspace)) => 0x800000000000000000008000000000
  | .ty (.rid) (.union) => 0x1000000000000001000000000000000
  | .ty (.rid) (.one) => 0x2000000000000002000000000000000
  | .ty (.rid) (.recKey) => 0x4000000000000004000000000000000
  | .ty (.rid) (.it) => 0x8000000000000008000000000000000
  | .ty (.rid) (.pair) => 0x10000000000000010000000000000000
  | .ty (.rid) (.arg) => 0x60000000000000060000000000000000
  | .ty (.rid) (.var) => 0x60000000000000060000000000000000
  | .ty (.rid) (.argOpt) => 0x80000000000000080000000000000000
  | .ty (.rid) (.dict) => 0x100000000000000100000000000000000
  | .ty (.rid) (.typedef) => 0x200000000000000200000000000000000
  | .ty (.rid) (.callback) => 0x400000000000000400000000000000000
  | .ty (.rid) (.const (.iface)) => 0x80000000000000000000000000000000000000000000000800000000000000800000000000000000
  | .ty (.rid) (.const (.mixin)) => 0x100000000000000000000000000000000000000000000001000000000000001000000000000000000
  | .ty (.rid) (.const (.nspace)) => 0x200000000000000000000000000000000000000000000002000000000000002000000000000000000
  | .ty (.rid) (.attr (.iface)) => 0x80000000000000000000000000000000000000000000004000000000000004000000000000000000
  | .ty (.rid) (.attr (.mixin)) => 0x100000000000000000000000000000000000000000000008000000000000008000000000000000000
  | .ty (.rid) (.attr (.nspace)) => 0x10000000000000010000000000000000000
  | .ty (.rid) (.op (.iface)) => 0x20000000000000020000000000000000000
  | .ty (.rid) (.op (.mixin)) => 0x40000000000000040000000000000000000
  | .ty (.rid) (.op (.nspace)) => 0x80000000000000080000000000000000000
  | .ty (.recd) (.union) => 0x1000000000100000000000000000000000000000000000
  | .ty (.recd) (.one) => 0x2000000000200000000000000000000000000000000000
  | .ty (.recd) (.recKey) => 0x4000000000400000000000000000000000000000000000
  | .ty (.recd) (.it) => 0x8000000000800000000000000000000000000000000000
  | .ty (.recd) (.pair) => 0x10000000001000000000000000000000000000000000000
  | .ty (.recd) (.arg) => 0x60000000006000000000000000000000000000000000000
  | .ty (.recd) (.var) => 0x60000000006000000000000000000000000000000000000
  | .ty (.recd) (.argOpt) => 0x80000000008000000000000000000000000000000000000
  | .ty (.recd) (.dict) => 0x100000000010000000000000000000000000000000000000
  | .ty (.recd) (.typedef) => 0x200000000020000000000000000000000000000000000000
  | .ty (.recd) (.callback) => 0x400000000040000000000000000000000000000000000000
  | .ty (.recd) (.const (.iface)) => 0x80000000000000000000000000000000800000000080000000000000000000000000000000000000
  | .ty (.recd) (.const (.mixin)) => 0x100000000000000000000000000000001000000000100000000000000000000000000000000000000
  | .ty (.recd) (.const (.nspace)) => 0x200000000000000000000000000000002000000000200000000000000000000000000000000000000
  | .ty (.recd) (.attr (.iface)) => 0x80000000000000000000000000000004000000000400000000000000000000000000000000000000
  | .ty (.recd) (.attr (.mixin)) => 0x100000000000000000000000000000008000000000800000000000000000000000000000000000000
  | .ty (.recd) (.attr (.nspace)) => 0x10000000001000000000000000000000000000000000000000
  | .ty (.recd) (.op (.iface)) => 0x20000000002000000000000000000000000000000000000000
  | .ty (.recd) (.op (.mixin)) => 0x40000000004000000000000000000000000000000000000000
  | .ty (.recd) (.op (.nspace)) => 0x80000000008000000000000000000000000000000000000000
  | .ty (.gen) (.union) => 0x1000010000000000000000000000000000000000000000
  | .ty (.gen) (.one) => 0x2000020000000000000000000000000000000000000000
  | .ty (.gen) (.recKey) => 0x4000040000000000000000000000000000000000000000
  | .ty (.gen) (.it) => 0x8000080000000000000000000000000000000000000000
  | .ty (.gen) (.pair) => 0x10000100000000000000000000000000000000000000000
  | .ty (.gen) (.arg) => 0x60000600000000000000000000000000000000000000000
  | .ty (.gen) (.var) => 0x60000600000000000000000000000000000000000000000
  | .ty (.gen) (.argOpt) => 0x80000800000000000000000000000000000000000000000
  | .ty (.gen) (.dict) => 0x100001000000000000000000000000000000000000000000
  | .ty (.gen) (.typedef) => 0x200002000000000000000000000000000000000000000000
  | .ty (.gen) (.callback) => 0x400004000000000000000000000000000000000000000000
  | .ty (.gen) (.const (.iface)) => 0x80000000000000000000000000000000800008000000000000000000000000000000000000000000
  | .ty (.gen) (.const (.mixin)) => 0x100000000000000000000000000000001000010000000000000000000000000000000000000000000
  | .ty (.gen) (.const (.nspace)) => 0x200000000000000000000000000000002000020000000000000000000000000000000000000000000
  | .ty (.gen) (.attr (.iface)) => 0x80000000000000000000000000000004000040000000000000000000000000000000000000000000
  | .ty (.gen) (.attr (.mixin)) => 0x100000000000000000000000000000008000080000000000000000000000000000000000000000000
  | .ty (.gen) (.attr (.nspace)) => 0x10000100000000000000000000000000000000000000000000
  | .ty (.gen) (.op (.iface)) => 0x20000200000000000000000000000000000000000000000000
  | .ty (.gen) (.op (.mixin)) => 0x40000400000000000000000000000000000000000000000000
  | .ty (.gen) (.op (.nspace)) => 0x80000800000000000000000000000000000000000000000000
  | .ty (.d) (.union) => 0x1000010000100000000000000000000000000000000000
  | .ty (.d) (.one) => 0x2000020000200000000000000000000000000000000000
  | .ty (.d) (.recKey) => 0x4000040000400000000000000000000000000000000000
  | .ty (.d) (.it) => 0x8000080000800000000000000000000000000000000000
  | .ty (.d) (.pair) => 0x10000100001000000000000000000000000000000000000
  | .ty (.d) (.arg) => 0x60000600006000000000000000000000000000000000000
  | .ty (.d) (.var) => 0x800000000060000600006000000000000000000000000000000000000
  | .ty (.d) (.argOpt) => 0x80000800008000000000000000000000000000000000000
  | .ty (.d) (.dict) => 0x100001000010000000000000000000000000000000000000
  | .ty (.d) (.typedef) => 0x200002000020000000000000000000000000000000000000
  | .ty (.d) (.callback) => 0x400004000040000000000000000000000000000000000000
  | .ty (.d) (.const (.iface)) => 0x80080000000000000000000000000000800008000080000000000000000000000000000000000000
  | .ty (.d) (.const (.mixin)) => 0x100100000000000000000000000000001000010000100000000000000000000000000000000000000
  | .ty (.d) (.const (.nspace)) => 0x200200000000000000000000000000002000020000200000000000000000000000000000000000000
  | .ty (.d) (.attr (.iface)) => 0x80080000000000000000000000000004000040000400000000000000000000000000000000000000
  | .ty (.d) (.attr (.mixin)) => 0x100100000000000000000000000000008000080000800000000000000000000000000000000000000
  | .ty (.d) (.attr (.nspace)) => 0x200000000000000000000000000010000100001000000000000000000000000000000000000000
  | .ty (.d) (.op (.iface)) => 0x4000000000000033a4040000000020000200002000000000000000000000000000000000000800
  | .ty (.d) (.op (.mixin)) => 0x800000000000000000080000000040000400004000000000000000000000000000000000001000
  | .ty (.d) (.op (.nspace)) => 0x1000000000000000000000000000080000800008000000000000000000000000000000000002000
  | .ty (.e) (.union) => 0x100000000000000000000000000000000000000000000000000
  | .ty (.e) (.one) => 0x200000000000000000000000000000000000000000000000000
  | .ty (.e) (.recKey) => 0x400000000000000000000000000000000000000000000000000
  | .ty (.e) (.it) => 0x800000000000000000000000000000000000000000000000000
  | .ty (.e) (.pair) => 0x1000000000000000000000000000000000000000000000000000
  | .ty (.e) (.arg) => 0x6000000000000000000000000000000000000000000000000000
  | .ty (.e) (.var) => 0x6000000000000000000000000000000000000000000000000000
  | .ty (.e) (.argOpt) => 0x8000000000000000000000000000000000000000000000000000
  | .ty (.e) (.dict) => 0x10000000000000000000000000000000000000000000000000000
  | .ty (.e) (.typedef) => 0x20000000000000000000000000000000000000000000000000000
  | .ty (.e) (.callback) => 0x40000000000000000000000000000000000000000000000000000
  | .ty (.e) (.const (.iface)) => 0x80000000000000000000000000000000000000000000000000000
  | .ty (.e) (.const (.mixin)) => 0x100000000000000000000000000000000000000000000000000000
  | .ty (.e) (.const (.nspace)) => 0x200000000000000000000000000000000000000000000000000000
  | .ty (.e) (.attr (.iface)) => 0x400000000000000000000000000000000000000000000000000000
  | .ty (.e) (.attr (.mixin)) => 0x800000000000000000000000000000000000000000000000000000
  | .ty (.e) (.attr (.nspace)) => 0x1000000000000000000000000000000000000000000000000000000
  | .ty (.e) (.op (.iface)) => 0x2000000000000000000000000000000000000000000000000000000
  | .ty (.e) (.op (.mixin)) => 0x4000000000000000000000000000000000000000000000000000000
  | .ty (.e) (.op (.nspace)) => 0x8000000000000000000000000000000000000000000000000000000
  | .atty (.union) => 0x10000000000000000000000000000000000000000000000000000000
  | .atty (.one) => 0x20000000000000000000000000000000000000000000000000000000
  | .atty (.it) => 0x80000000000000000000000000000000000000000000000000000000
  | .atty (.pair) => 0x100000000000000000000000000000000000000000000000000000000
  | .atty (.argOpt) => 0x800000000040000000000000000000000000000000000000000000000
  | .atty (.typedef) => 0x2000000000000000000000000000000000000000000000000000000000
  | .atty (.attr (.iface)) => 0x80000000000000000000040000000020000000000000000000000000000000000000000000000000
  | .atty (.attr (.mixin)) => 0x100000000000000000000080000000040000000000000000000000000000000000000000000000000
  | .atty (.attr (.nspace)) => 0x200000000000000000000100000000000000000000000000000000000000000000000000000000000
  | .fin => 0x1000000000000000000000000000000000000000000000000000000000000
  | .unS => 0x2000000000000000000000000000000000000000000000000000000000000
  | .ro => 0x4000000000020000000000000000000000000000000000000000000000000
  | .strf => 0x8000000000000000000000000000000000000000000000000000000000000
  | .strfM => 0x10000000000000000000000000000000000000000000000000000000000000
  | .inh => 0x20000000000020000000000000000000000000000000000000000000000000
  | .stat => 0x40000000000000000000000000000000000000000000000000000000000000
  | .ctor => 0x80000000000020000000000000000000000000000000000000000000000000
  | .itr => 0x100000000000020000000000000000000000000000000000000000000000000
  | .asy => 0x200000000000020000000000000000000000000000000000000000000000000
  | .asy2 => 0x80000000000000000400000000000000000000000000000000000000000000000000000000000000
  | .asy3 => 0x800000000000000000000000000000000000000000000000000000000000000
  | .mpl => 0x80000000000000001000000000000020000000000000000000000000000000000000000000000000
  | .stl => 0x80000000000000002000000000000020000000000000000000000000000000000000000000000000
  | .dmem => 0x4000000000000000000000000000000000000000000000000000000000000000
  | .dmem1 => 0x8000000000000000000000000000000000000000000000000000000000000000
  | .dictDef => 0x10000000000000000000000000000000000000000000000000000000000000000
  | .dictVal => 0x20000000000000000000000000000000000000000000000000000000000000000
  | .dictSemi => 0x40000000000000000000000000000000000000000000000000000000000000000
  | .argS => 0x80000000000000000000000000000000000000000000000000000000000000000
  | .argN => 0x100000000000000000000000000000000000000000000000000000000000000000
  | .arg1 => 0x200000000000000000000000000000000000000000000000000000000000000000
  | .argDef => 0x400000000000000000000000000000000000000000000000000000000000000000
  | .argVal => 0x800000000000000000000000000000000000000000000000000000000000000000
  | .argEnd => 0x1000000000000000000000000000000000000000000000000000000000000000000
  | .argVar => 0x2000000000000000000000000000000000000000000000000000000000000000000
  | .eaS => 0x4000000000000000000000000000000000000000000000000000000000000000000
  | .eaN => 0x8000000000000000000000000000000000000000000000000000000000000000000
  | .ea1 => 0x10000000000000000000000000000000000000000000000000000000000000000000
  | .eaEq => 0x20000000000000000000000000000000000000000000000000000000000000000000
  | .ea2 => 0x40000000000000000000000000000000000000000000000000000000000000000000
  | .eaE => 0x80000000000000000000000000000000000000000000000000000000000000000000
  | .idS => 0x100000000000000000000000000000000000000000000000000000000000000000000
  | .idN => 0x200000000000000000000000000000000000000000000000000000000000000000000
  | .idE => 0x400000000000000000000000000000000000000000000000000000000000000000000
  | .enS => 0x800000000000000000000000000000000000000000000000000000000000000000000
  | .enE => 0x1000000000000000000000000000000000000000000000000000000000000000000000
  | .enC => 0x2000000000000000000000000000000000000000000000000000000000000000000000
  | .doc => 0x4000000000000000000000000000000000000000000000000000000000000000000000
  | .def1 => 0x8000000000000000000000000000000000000000000000000000000000000000000000
  | .cb => 0x400010000000000000000000000000000000000000000000000000000000000000000000000
  | .cbEq => 0x800120000000000000000000000000000000000000000000000000000000000000000000000
  | .ifc => 0x400040000000000000000000000000000000000000000000000000000000000000000000000
  | .ifcN => 0x800880000000000000000000000000000000000000000000000000000000000000000000000
  | .ifcI => 0x120000000000000000000000000000000000000000000000000000000000000000000000
  | .ifcX => 0x200000000000000000000000000000000000000000000000000000000000000000000000
  | .ifcB => 0x400000000000000000000000000000000000000000000000000000000000000000000000
  | .mix => 0x880000000000000000000000000000000000000000000000000000000000000000000000
  | .mixB => 0x1000000000000000000000000000000000000000000000000000000000000000000000000
  | .par => 0x402000000000000000000000000000000000000000000000000000000000000000000000000
  | .nsp => 0x404000000000000000000000000000000000000000000000000000000000000000000000000
  | .nspB => 0x808000000000000000000000000000000000000000000000000000000000000000000000000
  | .dic => 0x410000000000000000000000000000000000000000000000000000000000000000000000000
  | .dicN => 0x820000000000000000000000000000000000000000000000000000000000000000000000000
  | .dicI => 0x40000000000000000000000000000000000000000000000000000000000000000000000000
  | .dicB => 0x80000000000000000000000000000000000000000000000000000000000000000000000000
  | .enu => 0x500000000000000000000000000000000000000000000000000000000000000000000000000
  | .enuB => 0xa00000000000000000000000000000000000000000000000000000000000000000000000000
  | .inc1 => 0x516050000000000000000000000000000000000000000000000000000000000000000000000
  | .inc2 => 0xa280a0000000000000000000000000000000000000000000000000000000000000000000000
  | .docSemi => 0x1000000000000000000000000000000000000000000000000000000000000000000000000000
  | .mem (.iface) => 0x2000000000000000000000000000000000000000000000000000000000000000000000000000
  | .mem (.mixin) => 0x4000000000000000000000000000000000000000000000000000000000000000000000000000
  | .mem (.nspace) => 0x8000000000000000000000000000000000000000000000000000000000000000000000000000
  | .mem1 (.iface) => 0x10000000000000000000000000000000000000000000000000000000000000000000000000000
  | .mem1 (.mixin) => 0x20000000000000000000000000000000000000000000000000000000000000000000000000000
  | .mem1 (.nspace) => 0x40000000000000000000000000000000000000000000000000000000000000000000000000000
  | .semi (.iface) => 0x80000000000000000000000000004800000000000000000000000000000000000000000000000
  | .semi (.mixin) => 0x100000000000000000000000000009000000000000000000000000000000000000000000000000
  | .semi (.nspace) => 0x200000000000000000000000000012000000000000000000000000000000000000000000000000
  | .roA (.iface) => 0x80400000000000000000000000000020000000000000000000000000000000000000000000000000
  | .roA (.mixin) => 0x800000000000000000000000000040000000000000000000000000000000000000000000000000
  | .roA (.nspace) => 0x1000000000000000000000000000080000000000000000000000000000000000000000000000000
  | .constEq (.iface) => 0x2000000000000000000000000000000000000000000000000000000000000000000000000000000
  | .constEq (.mixin) => 0x4000000000000000000000000000000000000000000000000000000000000000000000000000000
  | .constEq (.nspace) => 0x8000000000000000000000000000000000000000000000000000000000000000000000000000000
  | .constVal (.iface) => 0x10000000000000000000000000000000000000000000000000000000000000000000000000000000
  | .constVal (.mixin) => 0x20000000000000000000000000000000000000000000000000000000000000000000000000000000
  | .constVal (.nspace) => 0x40000000000000000000000000000000000000000000000000000000000000000000000000000000
  | .opArgs (.iface) => 0x80400000000000003400040000000004800048000480004800048000480004800000000480000000
  | .opArgs (.mixin) => 0x100000000000000000000080000000009000090000900009000090000900009000000000900000000
  | .opArgs (.nspace) => 0x200000000000000000000100000000002000020000200002000020000200002000000000200000000
  | _ => 0

def inD : St → St → Bool := inRows rowD

def inA : St → St → Bool := inRows rowA

theorem inD_apart : ∀ p q, inD p q = Bool.true → apart inD p q = Bool.true :=
  fun _ _ => forRows_spec (f := apart inD) (by decide +kernel)

theorem inA_along : ∀ p q, inA p q = Bool.true → along inD inA p q = Bool.true ∧ histOk p = Bool.true ∧ histOk q = Bool.true ∧
    pairOk p q = Bool.true := by
  have h : forRows rowA (fun p q => along inD inA p q && (histOk p && (histOk q && pairOk p q))) = Bool.true := by decide +kernel
  intro p q hA
  have h := forRows_spec h hA
  simpa using h

end Verif.Auto
