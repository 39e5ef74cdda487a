import Verif.Model.Go
/-!
# Model of textseg/internal/charprops/property_table_raw.go

Generated by tools/gen_table.py: one number per 64-byte block ("block 0x...." in the Go file); its hexadecimal
digits, read from left to right, are the 64 bytes of the block in the order of the Go source.
-/

namespace Textseg

/-- property_table_raw.go:5-231 `lookupIndices` (1600 elements) -/
def lookupIndices : PackedTable := ⟨[
  -- block 0x0000
  0x020203020202020202020202040502020202060202020708090a020b0c0d0e0f0102030405050505050506070809050a15161618161616161616161616161616,
  -- block 0x0001
  0x10101010101010101010101010101010101010101010101010101010101010101112131415161718191a1b1c1d1e1f202122232425262728292a2b2c2d2e2f30,
  -- block 0x0002
  0x31323310343536371010101010381010101010101010101010101010393a3b3c3d103e103f1010104041424344454647481010491010104a1010101010101010,
  -- block 0x0003
  0x4b4c104d4e104f101010101050101051101010521010535455565758595a5b10101010105c101010101010105d5e10101010105f106010611010101010101010,
  -- block 0x0004
  0x62106310101010101010641010101010101010101010101010101010101010101010101010101010101010101010101010101010101010101010101010101010,
  -- block 0x0005
  0x10101010101010101010101010101010101010101010101010101010101010101010101010101010101010101010101010101010101010101010101010101010,
  -- block 0x0006
  0x10101010101010101010101010101010101010101010101010656667101010106810696a6b6c6d6e6f707172101010737475767778797a7475767778797a7475,
  -- block 0x0007
  0x767778797a7475767778797a7475767778797a7475767778797a7475767778797a7475767778797a7475767778797a7475767778797a7475767778797a747576,
  -- block 0x0008
  0x7778797a7475767778797a7475767778797a7475767778797a7475767778797a7475767778797a7475767778797a7475767778797a7475767778797a74757677,
  -- block 0x0009
  0x78797a7475767778797a7475767778797a7475767778797a7475767778797b7c1010101010101010101010101010101010101010101010101010101010101010,
  -- block 0x000a
  0x10101010101010101010101010101010101010101010101010101010101010101010101010101010101010107d10101010101010101010107e1010011010667f,
  -- block 0x000b
  0x02020202020202020202020202020202020202020202020202020202020202020202020202020202020202020202020202020202020202020202020202020202,
  -- block 0x000c
  0x02020202020202800202028102820202020202020202020202020202020202020202020202020202830202840202020202020202858602020202878802898a02,
  -- block 0x000d
  0x8b8c8d8e8f90919293940295969798999a9b9c9d02029e9fa0a1a202a3020202a4020202a5a602a7a8a9aa0202ab0202ac02ad02aeafb002020202b1b2b30202,
  -- block 0x000e
  0x02020202020202020202020202020202b4b502020202020202020202020202020202020202020202020202020202020202020202020202020202020202020202,
  -- block 0x000f
  0x02020202b60202020202020202020202020202020202020202020202020202020202020202020202020202b7b80202020202020202b902020202020202babbbc,
  -- block 0x0010
  0x0202020202020202020202020202020202020202020202020202020202020202020202020202020202020202020202020202bd02020202020202020202020202,
  -- block 0x0011
  0x020202020202020202020202020202020202020202020202020202020202020202020202020202020202020202020202020202020202020202020202bebf0202,
  -- block 0x0012
  0x0202020202c0c10202c2020202020202020202020202020202020202020202020202020202020202c3c4c5020202020202020202020202020202020202020202,
  -- block 0x0013
  0xc602c702b80202020202c8c902020202020202c9020202ca020202cb02020202020202cc02cd0202020202020202020202020202020202020202020202020202,
  -- block 0x0014
  0xce02cfd002d1d2d3d4d5d6d6d7d6d8d9d6d6d6dadbdcddded6dfd6e0020202e1e2e3e4e5e6e7d6d602e8d6d602020202d6d6d6d6d6d6d6d6d6d6d6d6d6d6d6db,
  -- block 0x0015
  0x0b0b0b0b0b0b0b0b0b0b0b0b0b0b0b0b0c0d0b0e0b0b0f0b0b0b0b10111213140b0b0b0b0b0b0b0b0b0b0b0b0b0b0b0b0b0b0b0b0b0b0b0b0b0b0b0b0b0b0b0b,
  -- block 0x0016
  0x0b0b0b0b0b0b0b0b0b0b0b0b0b0b0b0b0b0b0b0b0b0b0b0b0b0b0b0b0b0b0b0b0b0b0b0b0b0b0b0b0b0b0b0b0b0b0b0b0b0b0b0b0b0b0b0b0b0b0b0b0b0b0b0b,
  -- block 0x0017
  0xe904eaea040404ebeaeaeaeaeaeaeaeaeaeaeaeaeaeaeaeaeaeaeaeaeaeaeaeaeaeaeaeaeaeaeaeaeaeaeaeaeaeaeaeaeaeaeaeaeaeaeaeaeaeaeaeaeaeaeaea,
  -- block 0x0018
  0x0b0b0b0b0b0b0b0b0b0b0b0b0b0b0b0b0b0b0b0b0b0b0b0b0b0b0b0b0b0b0b0b170b0b0b0b0b0b0b0b0b0b0b0b0b0b0b0b0b0b0b0b0b0b0b0b0b0b0b0b0b0b0b]⟩

/-- property_table_raw.go:232-2357 `lookupProps` (15104 elements) -/
def lookupProps : PackedTable := ⟨[
  -- block 0x0000
  0x02020202020202020202060202010202020202020202020202020202020202020000000000000000000000000000000000000000000000000000000000000000,
  -- block 0x0001
  0x00000000000000000000000000000000000000000000000000000000000000000000000000000000000000000000000000000000000000000000000000000002,
  -- block 0x0002
  0x00000000000000000000000000000000000000000000000000000000000000000000000000000000000000000000000000000000000000000000000000000000,
  -- block 0x0003
  0x02020202020202020202020202020202020202020202020202020202020202020000000000000000000400000002040000000000000000000000000000000000,
  -- block 0x0004
  0x23232323232323232323232323232323232323232323232323232323232323232323232323232323232323232323232323232323232323232323232323232323,
  -- block 0x0005
  0x23232323232323232323232323232323232323232323232323232323232323232323232323232323232323232323232300000000000000000000000000000000,
  -- block 0x0006
  0x00000023232323232323000000000000000000000000000000000000000000000000000000000000000000000000000000000000000000000000000000000000,
  -- block 0x0007
  0x00000000000000000000000000000000002323232323232323232323232323232323232323232323232323232323232323232323232323232323232323230023,
  -- block 0x0008
  0x00232300232300230000000000000000000000000000000000000000000000000000000000000000000000000000000000000000000000000000000000000000,
  -- block 0x0009
  0x09090909090900000000000000000000232323232323232323232300020000000000000000000000000000000000000000000000000000000000000000000000,
  -- block 0x000a
  0x00000000000000000000002323232323232323232323232323232323232323230000000000000000000000000000000023000000000000000000000000000000,
  -- block 0x000b
  0x00000000000000000000000000000000000000000000232323232323230900232323232323000023230023232323000000000000000000000000000000000000,
  -- block 0x000c
  0x00000000000000000000000000000009002300000000000000000000000000000000000000000000000000000000000023232323232323232323232323232323,
  -- block 0x000d
  0x23232323232323232323230000000000000000000000000000000000000000000000000000000000000000000000000000000000000000000000000000000000,
  -- block 0x000e
  0x00000000000000000000000000000000000000000000000000000000000000000000000000002323232323232323232323000000000000000000000000000000,
  -- block 0x000f
  0x00000000000000000000000000000000000000000000000000000000000000000000000000000000000000232323232323232323000000000000000000230000,
  -- block 0x0010
  0x00000000000000000000000000000000000000000000000000000000000000000000000000000000000000000000000000000000000000000000000000000000,
  -- block 0x0011
  0x00000000000000000000000000000000000000000000232323230023232323232323232300232323002323232323000000000000000000000000000000000000,
  -- block 0x0012
  0x00000000000000000000000000000000000000000000000000232323000000000000000000000000000000000000000000000000000000000000000000000000,
  -- block 0x0013
  0x00000000000000000000000000000000090900000000002323232323232323230000000000000000000000000000000000000000000000000000000000000000,
  -- block 0x0014
  0x00000000000000000000232323232323232323232323232323232323232323232323092323232323232323232323232323232323232323232323232323232323,
  -- block 0x0015
  0x2323230b000000000000000000000000000000000010101010101010101010101010101010101010101010101010101010101010101010101010230b23000b0b,
  -- block 0x0016
  0x0b23232323232323230b0b0b0b330b0b002323232323232310101010101010100000232300000000000000000000000000000000000000001010101010101010,
  -- block 0x0017
  0x00230b0b00000000000000000000000000000000001010101010101010101010101010101010101010001010101010101000100000001010101000002300230b,
  -- block 0x0018
  0x0b2323232300000b0b00000b0b330000000000000000002300000000101000100000232300000000000000000000000010100000000000000000000000002300,
  -- block 0x0019
  0x0023230b000000000000000000000000000000000000000000000000000000000000000000000000000000000000000000000000000000000000000023000b0b,
  -- block 0x001a
  0x0b232300000000232300002323230000002300000000000000000000000000000000000000000000000000000000000023230000002300000000000000000000,
  -- block 0x001b
  0x0023230b000000000000000000000000000000000010101010101010101010101010101010101010100010101010101010001010001010101010000023000b0b,
  -- block 0x001c
  0x0b23232323230023230b000b0b330000000000000000000000000000000000000000232300000000000000000000000000000000000000000010232323232323,
  -- block 0x001d
  0x00230b0b000000000000000000000000000000000010101010101010101010101010101010101010100010101010101010001010001010101010000023002323,
  -- block 0x001e
  0x0b2323232300000b0b00000b0b330000000000000023232300000000101000100000232300000000000000000000000000100000000000000000000000000000,
  -- block 0x001f
  0x0000230000000000000000000000000000000000000000000000000000000000000000000000000000000000000000000000000000000000000000000000230b,
  -- block 0x0020
  0x230b0b0000000b0b0b000b0b0b230000000000000000002300000000000000000000000000000000000000000000000000000000000000000000000000000000,
  -- block 0x0021
  0x230b0b0b230000000000000000000000000000000010101010101010101010101010101010101010100010101010101010101010101010101010000023002323,
  -- block 0x0022
  0x230b0b0b0b0023232300232323330000000000000023230010101000000000000000232300000000000000000000000000000000000000000000000000000000,
  -- block 0x0023
  0x00230b0b000000000000000000000000000000000000000000000000000000000000000000000000000000000000000000000000000000000000000023000b23,
  -- block 0x0024
  0x230b230b0b002323230023232323000000000000002323000000000000000000000023230000000000000000000000000000000b000000000000000000000000,
  -- block 0x0025
  0x23230b0b00000000000000000000000000000000001010101010101010101010101010101010101010101010101010101010101010101010101010232300230b,
  -- block 0x0026
  0x0b23232323000b0b0b000b0b0b330900000000000000002300000000000000000000232300000000000000000000000000000000000000000000000000000000,
  -- block 0x0027
  0x00230b0b000000000000000000000000000000000000000000000000000000000000000000000000000000000000000000000000000000000000000000000000,
  -- block 0x0028
  0x000000000000000000002300000000230b0b2323230023000b0b0b0b0b0b0b230000000000000000000000000000000000000b0b000000000000000000000000,
  -- block 0x0029
  0x0000000000000000000000000000000000000000000000000000000000000000000000000000000000000000000000000023000b232323232323230000000000,
  -- block 0x002a
  0x00000000000000232323232323232300000000000000000000000000000000000000000000000000000000000000000000000000000000000000000000000000,
  -- block 0x002b
  0x0000000000000000000000000000000000000000000000000000000000000000000000000000000000000000000000000023000b232323232323232323000000,
  -- block 0x002c
  0x00000000000000002323232323232300000000000000000000000000000000000000000000000000000000000000000000000000000000000000000000000000,
  -- block 0x002d
  0x00000000000000000000000000000000000000000000000023230000000000000000000000000000000000000000000000000000002300230023000000000b0b,
  -- block 0x002e
  0x0000000000000000000000000000000000000000000000000000000000000000000000000000000000000000000000000023232323232323232323232323230b,
  -- block 0x002f
  0x23232323230023230000000000232323232323232323232300232323232323232323232323232323232323232323232323232323232323232323232323000000,
  -- block 0x0030
  0x00000000000023000000000000000000000000000000000000000000000000000000000000000000000000000000000000000000000000000000000000000000,
  -- block 0x0031
  0x101010101010101010101010101010101010101010101010101010101010101010101010101010101010100000232323230b2323232323230033230b0b232310,
  -- block 0x0032
  0x000000000000000000000000000000001010101010100b0b23231010101023232310000000101000000000000000101010232323231010101010101010101010,
  -- block 0x0033
  0x101023000b2323000000000000231000000000000000000000000000002300000000000000000000000000000000000000000000000000000000000000000000,
  -- block 0x0034
  0x05050505050505050505050505050505050505050505050505050505050505050505050505050505050505050505050505050505050505050505050505050505,
  -- block 0x0035
  0x05050505050505050505050505050505050505050505050505050505050505050d0d0d0d0d0d0d0d0d0d0d0d0d0d0d0d0d0d0d0d0d0d0d0d0d0d0d0d0d0d0d0d,
  -- block 0x0036
  0x0d0d0d0d0d0d0d0d0d0d0d0d0d0d0d0d0d0d0d0d0d0d0d0d0d0d0d0d0d0d0d0d0d0d0d0d0d0d0d0d0c0c0c0c0c0c0c0c0c0c0c0c0c0c0c0c0c0c0c0c0c0c0c0c,
  -- block 0x0037
  0x0c0c0c0c0c0c0c0c0c0c0c0c0c0c0c0c0c0c0c0c0c0c0c0c0c0c0c0c0c0c0c0c0c0c0c0c0c0c0c0c0c0c0c0c0c0c0c0c0c0c0c0c0c0c0c0c0c0c0c0c0c0c0c0c,
  -- block 0x0038
  0x00000000000000000000000000000000000000000000000000000000002323230000000000000000000000000000000000000000000000000000000000000000,
  -- block 0x0039
  0x00000000000000000000000000000000000023232323000000000000000000000000000000000000000000000000000000002323230000000000000000000000,
  -- block 0x003a
  0x00000000000000000000000000000000000023230000000000000000000000000000000000000000000000000000000000002323000000000000000000000000,
  -- block 0x003b
  0x1010101010101010101010101010101010101010101010101010101010101010101010101010101010101010101010101010101023230b232323232323230b0b,
  -- block 0x003c
  0x0b0b0b0b0b0b230b0b23232323232323232333230000000000000000002300000000000000000000000000000000000000000000000000000000000000000000,
  -- block 0x003d
  0x00000000000000000000002323230223000000000000000000000000000000000000000000000000000000000000000000000000000000000000000000000000,
  -- block 0x003e
  0x00000000002323000000000000000000000000000000000000000000000000000000000000000000002300000000000000000000000000000000000000000000,
  -- block 0x003f
  0x00000000000000000000000000000000000000000000000000000000000000002323230b0b0b0b23230b0b0b000000000b0b230b0b0b0b0b0b23232300000000,
  -- block 0x0040
  0x000000000000000000000000000000000000000000000023230b0b23000000001010101010101010101010101010101010101010101010101010101010101010,
  -- block 0x0041
  0x1010101010101010101010101010101010101010100b230b2323232323232300330023000023232323232323230b0b0b0b0b0b23232323232323232323000023,
  -- block 0x0042
  0x00000000000000000000000000000000000000000000000000000000000000000000000000000000000000000000000023232323232323232323232323232323,
  -- block 0x0043
  0x23232323232323232323232323232323232323232323232323232323232300002323232323232323232323230000000000000000000000000000000000000000,
  -- block 0x0044
  0x232323230b0000000000001010000000000000101010101010101010101010101010101010101010101010101010101010101010232323232323232323230b0b,
  -- block 0x0045
  0x0b0b2323331010101010101010000000000000000000000000000000000000000000000000000000000000232323232323232323000000000000000000000000,
  -- block 0x0046
  0x23230b1010101010101010101010101010101010101010101010101010101010100b232323230b0b232323332323101000000000000000000000001010100000,
  -- block 0x0047
  0x0000000000000000000000000000000000000000000000000000000000000000000000000000230b23230b0b0b230b2323232323000000000000000000000000,
  -- block 0x0048
  0x0000000000000000000000000000000000000000000000000000000000000000000000000b0b0b0b0b0b0b0b23232323232323230b0b23230000000000000000,
  -- block 0x0049
  0x0000000000000000000000000000000023232300232323232323232323232323230b2323232323232300000000230000000000002300000b2323000000000000,
  -- block 0x004a
  0x23232323232323232323232323232323232323232323232323232323232323232323232323232323232323232323232323232323232323232323232323232323,
  -- block 0x004b
  0x000000000000000000000002032e0202000000000000000000000000000000000000000000000000020202020202020000000000000000000000000004000000,
  -- block 0x004c
  0x00000000000000000004000000000000000000000000000000000000000000000202020202020202020202020202020200000000000000000000000000000000,
  -- block 0x004d
  0x00000000000000000000000000000000232323232323232323232323232323232323232323232323232323232323232323000000000000000000000000000000,
  -- block 0x004e
  0x00000000000000000000000000000000000000000000000000000000000000000000040000000000000000000000000000000000000000000004000000000000,
  -- block 0x004f
  0x00000000000000000000000000000000000000000404040404040000000000000000000000000000000404000000000000000000000000000000000000000000,
  -- block 0x0050
  0x00000000000000000000000000000000000000000000000000000404000000000000000000000000040000000000000000000000000000000000000000000000,
  -- block 0x0051
  0x00000000000000000000000000000004000000000000000000000000000000000000000000000000000404040404040404040404000000000404040000000000,
  -- block 0x0052
  0x00000400000000000000000000000000000000000000000000000000000000000000000000000000000000000000000000000000000000000000000000000000,
  -- block 0x0053
  0x00000000000000000000000000000000000000000000000000000000000000000000000000000000000004040000000000000000000004000000000000000000,
  -- block 0x0054
  0x04000000000000000000000000000000000000000000000000000000000000000000000000000000000000000000000000000000000000000000000404040400,
  -- block 0x0055
  0x04040404040000000000000000000400000400000404000004000000000400000400040400000400000004000000040400000000000000000404040000000000,
  -- block 0x0056
  0x04000400000000000404040404040404040404040000000000000000000000040400000400040400040000000000000000000000000000000000000400000404,
  -- block 0x0057
  0x00000000000000000000000000000000000004040404040400040004040000000404000000000004000004040000000004040000000000000000000000040400,
  -- block 0x0058
  0x00000000040400000400000000000404000400040400000000000000000000000000000000000000000404000000000004040404040400040404040000040000,
  -- block 0x0059
  0x00000400000400000404040404040004000004000400040000000000000400000004000000000000040000000000000000000004040000000000000000000000,
  -- block 0x005a
  0x00000000040000040000000004000400000000040404000400000000000000000000000404000000000000000000000000000000000000000000000000000000,
  -- block 0x005b
  0x00000000000000000000000000000000000000000004040400000000000000000004000000000000000000000000000004000000000000000000000000000004,
  -- block 0x005c
  0x00000000000000000000000000000000000000000000000000000000000000000000000000000000000000000000000000000000040400000000000000000000,
  -- block 0x005d
  0x00000000000404040000000000000000000000000000000000000004040000000000000000000000000000000000000000000000000000000000000000000000,
  -- block 0x005e
  0x00000000000000000000000000000000040000000004000000000000000000000000000000000000000000000000000000000000000000000000000000000000,
  -- block 0x005f
  0x00000000000000000000000000000000000000000000000000000000000000000000000000000000000000000000002323230000000000000000000000000000,
  -- block 0x0060
  0x00000000000000000000000000000000000000000000000000000000000000000000000000000000000000000000000000000000000000000000000000000023,
  -- block 0x0061
  0x00000000000000000000000000000000000000000000000000000000000000002323232323232323232323232323232323232323232323232323232323232323,
  -- block 0x0062
  0x00000000000000000000000000000000000000000000000000000000000000000000000000000000000023232323232304000000000000000000000000040000,
  -- block 0x0063
  0x00000000000000000000000000000000000000000000000000232300000000000000000000000000000000000000000000000000000000000000000000000000,
  -- block 0x0064
  0x00000000000000000000000000000000000000000000000400040000000000000000000000000000000000000000000000000000000000000000000000000000,
  -- block 0x0065
  0x00000000000000000000000000000000000000000000000000000000000000000000000000000000000000000000002323232300232323232323232323230000,
  -- block 0x0066
  0x00000000000000000000000000000000000000000000000000000000000023230000000000000000000000000000000000000000000000000000000000000000,
  -- block 0x0067
  0x00000000000000000000000000000000000000000000000000000000000000000000000000000000000000000000000023230000000000000000000000000000,
  -- block 0x0068
  0x00002300000023000000002300000000000000000000000000000000000000000000000b0b23230b000000002300000000000000000000000000000000000000,
  -- block 0x0069
  0x0b0b00000000000000000000000000000000000000000000000000000000000000000000000000000000000000000000000000000b0b0b0b0b0b0b0b0b0b0b0b,
  -- block 0x006a
  0x0b0b0b0b232300000000000000000000000000000000000000000000000000002323232323232323232323232323232323230000000000000000000000000023,
  -- block 0x006b
  0x00000000000000000000000000000000000000000000000000000000000000000000000000002323232323232323000000000000000000000000000000000000,
  -- block 0x006c
  0x0000000000000023232323232323232323230b230000000000000000000000000505050505050505050505050505050505050505050505050505050505000000,
  -- block 0x006d
  0x2323230b0000000000101010000000101010101010101010101010101010101010101010101010101010101010101010101010230b0b232323230b0b23230b0b,
  -- block 0x006e
  0x33000000000000000000000000000000000000000000000000000000000000001010101010230010101010101010101000000000000000000000101010101000,
  -- block 0x006f
  0x00000000000000000000000000000000000000000000000000000000000000000000000000000000002323232323230b0b23230b0b2323000000000000000000,
  -- block 0x0070
  0x000000230000000000000000230b0000000000000000000000000000000000001010101010101010101010101010101000101010000000000000100023001010,
  -- block 0x0071
  0x00000000000000000000000000000000000000000000000000000000000000000000000000000000000000000000000023002323230000232300000000002323,
  -- block 0x0072
  0x002300000000000000000000000000000000000000000000000000000000000010101010101010101010100b23230b0b00000000000b33000000000000000000,
  -- block 0x0073
  0x10101010101010101010101010101010101010101010101010101000000000000000000b0b230b0b230b0b000b23000000000000000000000000000000000000,
  -- block 0x0074
  0x07080808080808080808080808080808080808080808080808080808070808080808080808080808080808080808080808080808080808080708080808080808,
  -- block 0x0075
  0x08080808080808080808080808080808080808080708080808080808080808080808080808080808080808080808080807080808080808080808080808080808,
  -- block 0x0076
  0x08080808080808080808080807080808080808080808080808080808080808080808080808080808070808080808080808080808080808080808080808080808,
  -- block 0x0077
  0x08080808070808080808080808080808080808080808080808080808080808080708080808080808080808080808080808080808080808080808080807080808,
  -- block 0x0078
  0x08080808080808080808080808080808080808080808080807080808080808080808080808080808080808080808080808080808070808080808080808080808,
  -- block 0x0079
  0x08080808080808080808080808080808070808080808080808080808080808080808080808080808080808080708080808080808080808080808080808080808,
  -- block 0x007a
  0x08080808080808080708080808080808080808080808080808080808080808080808080807080808080808080808080808080808080808080808080808080808,
  -- block 0x007b
  0x0808080808080808070808080808080808080808080808080808080808080808080808080000000000000000000000000d0d0d0d0d0d0d0d0d0d0d0d0d0d0d0d,
  -- block 0x007c
  0x0d0d0d0d0d0d0d000000000c0c0c0c0c0c0c0c0c0c0c0c0c0c0c0c0c0c0c0c0c0c0c0c0c0c0c0c0c0c0c0c0c0c0c0c0c0c0c0c0c0c0c0c0c0c0c0c0c00000000,
  -- block 0x007d
  0x00000000000000000000000000000000000000000000000000000000000023000000000000000000000000000000000000000000000000000000000000000000,
  -- block 0x007e
  0x23232323232323232323232323232323000000000000000000000000000000002323232323232323232323232323232300000000000000000000000000000000,
  -- block 0x007f
  0x00000000000000000000000000000000000000000000000000000000000000000000000000000000000000000000000002020202020202020202020200000000,
  -- block 0x0080
  0x00000000000000000000000000000000000000000000000000000000000000000000000000000000000000000000000000000000000000000000000000230000,
  -- block 0x0081
  0x00000000000000000000000000000000000000000000000000000000000000002300000000000000000000000000000000000000000000000000000000000000,
  -- block 0x0082
  0x00000000000000000000000000000000000000000000000000000000000000000000000000000000000000000000000000000000000023232323230000000000,
  -- block 0x0083
  0x10232323002323000000000023232323101010100010101000101010101010101010101010101010101010101010101010101010101000002323230000000033,
  -- block 0x0084
  0x00000000000000000000000000000000000000000000000000000000000000000000000000232300000000000000000000000000000000000000000000000000,
  -- block 0x0085
  0x00000000000000000000000000000000000000000000000000000000000000000000000023232323000000000000000000000000000000000000000000000000,
  -- block 0x0086
  0x00000000000000000000000000000000000000000000000000000000000000000000000000000000002323232323000000000000000000000000000000000000,
  -- block 0x0087
  0x00000000000000000000000000000000000000000000000000000000000000000000000000000000000000232300000000000000000000000000000000000000,
  -- block 0x0088
  0x00000000000000000000000000000000000000000000000000000000000000000000000000000000000000000000000000000000000000000000232323232323,
  -- block 0x0089
  0x00000000000023232323232323232323230000000000000000000000000000000000000000000000000000000000000000000000000000000000000000000000,
  -- block 0x008a
  0x00002323232300000000000000000000000000000000000000000000000000000000000000000000000000000000000000000000000000000000000000000000,
  -- block 0x008b
  0x0b230b00000000000000000000000000000000000000000000000000000000000000000000000000000000000000000000000000000000002323232323232323,
  -- block 0x008c
  0x23232323232323000000000000000000000000000000000000000000000000000000000000000000000000000000000023000023230000000000000000000023,
  -- block 0x008d
  0x23230b0000000000000000000000000000000000000000000000000000000000000000000000000000000000000000000b0b0b232323230b0b23230000090000,
  -- block 0x008e
  0x00002300000000000000000000090000000000000000000000000000000000000000000000000000000000000000000000000000000000000000000000000000,
  -- block 0x008f
  0x23232310101010101010101010101010101010101010101010101010101010101010101010101023232323230b23232323232333230000000000000000000000,
  -- block 0x0090
  0x00000000100b0b100000000000000000000000000000000000000000000000000000000000000000000000000000000000000023000000000000000000000000,
  -- block 0x0091
  0x23230b0000000000000000000000000000000000000000000000000000000000000000000000000000000000000000000000000b0b0b2323232323232323230b,
  -- block 0x0092
  0x23000909000000000023232323000b23000000000000000000000000000000000000000000000000000000000000000000000000000000000000000000000000,
  -- block 0x0093
  0x00000000000000000000000000000000000000000000000000000000000000000000000000000000000000000b0b0b2323230b0b232323230000000000002300,
  -- block 0x0094
  0x00230000000000000000000000000000000000000000000000000000000000000000000000000000000000000000000000000000000000000000000000000000,
  -- block 0x0095
  0x00000000000000000000000000000000000000000000000000000000000000230b0b0b2323232323232323000000000000000000000000000000000000000000,
  -- block 0x0096
  0x23230b0b00000000000000000000000000000000000000000000000000000000000000000000000000000000000000000000000000000000000000232300230b,
  -- block 0x0097
  0x230b0b0b0b00000b0b00000b0b2300000000000000000023000000000000000000000b0b00002323232323232300000023232323230000000000000000000000,
  -- block 0x0098
  0x1010101010101010101000100000100010101010101010101010101010101010101010101010101010101010101010101010101010100000230b0b2323232323,
  -- block 0x0099
  0x230023000023002323230b000b0b2323330923000000000000000000000000000023230000000000000000000000000000000000000000000000000000000000,
  -- block 0x009a
  0x00000000000000000000000000000000000000000000000000000000000000000000000000000000000000000000000000000000000b0b0b2323232323232323,
  -- block 0x009b
  0x0b0b2323230b23000000000000000000000000000000000000000000000023000000000000000000000000000000000000000000000000000000000000000000,
  -- block 0x009c
  0x000000000000000000000000000000000000000000000000000000000000000000000000000000000000000000000000230b0b2323232323230b230b0b230b23,
  -- block 0x009d
  0x230b2323000000000000000000000000000000000000000000000000000000000000000000000000000000000000000000000000000000000000000000000000,
  -- block 0x009e
  0x0000000000000000000000000000000000000000000000000000000000000000000000000000000000000000000000230b0b2323232300000b0b0b0b23230b23,
  -- block 0x009f
  0x23000000000000000000000000000000000000000000000000000000232300000000000000000000000000000000000000000000000000000000000000000000,
  -- block 0x00a0
  0x0000000000000000000000000000000000000000000000000000000000000000000000000000000000000000000000000b0b0b23232323232323230b0b230b23,
  -- block 0x00a1
  0x23000000000000000000000000000000000000000000000000000000000000000000000000000000000000000000000000000000000000000000000000000000,
  -- block 0x00a2
  0x00000000000000000000000000000000000000000000000000000000000000000000000000000000000000230b230b0b23232323232323230000000000000000,
  -- block 0x00a3
  0x0000000000000000000000000000000000000000000000000000000000230b230000232323230b23232323230000000000000000000000000000000000000000,
  -- block 0x00a4
  0x00000000000000000000000000000000000000000000000000000000000000000000000000000000000000000b0b0b2323232323232323230b23230000000000,
  -- block 0x00a5
  0x101010101010100000100000101010101010101000101000101010101010101010101010101010101010101010101010230b0b0b0b0b000b0b00002323233309,
  -- block 0x00a6
  0x0b090b23000000000000000000000000000000000000000000000000000000000000000000000000000000000000000000000000000000000000000000000000,
  -- block 0x00a7
  0x00000000000000000000000000000000000b0b0b23232323000023230b0b0b0b230000000b000000000000000000000000000000000000000000000000000000,
  -- block 0x00a8
  0x1023232323232323232323101010101010101010101010101010101010101010101010101010101010101010101010101010102323232323230b002323232300,
  -- block 0x00a9
  0x00000000000000330000000000000000102323232323230b0b232323101010101010101010101010101010101010101010101010101010101010101010101010,
  -- block 0x00aa
  0x10101010090909090909232323232323232323232323230b23330000000000000000000000000000000000000000000000000000000000000000000000000000,
  -- block 0x00ab
  0x0000000000000000000000000000000000000000000000000000000000000000230b2323230b230b000000000000000000000000000000000000000000000000,
  -- block 0x00ac
  0x00000000000000000000000000000000000000000000000000000000000000000000000000000000000000000000000b23232323232323002323232323230b23,
  -- block 0x00ad
  0x00000000000000000000000000000000000023232323232323232323232323232323232323232323000b232323232323230b23230b2323000000000000000000,
  -- block 0x00ae
  0x00000000000000000000000000000000000000000000000000000000000000000000000000000000000000000000000000232323232323000000230023230023,
  -- block 0x00af
  0x23232323232309230000000000000000000000000000000000000000000000000000000000000000000000000000000000000000000000000000000000000000,
  -- block 0x00b0
  0x000000000000000000000b0b0b0b0b002323000b0b230b2300000000000000000000000000000000000000000000000000000000000000000000000000000000,
  -- block 0x00b1
  0x00000000000000000000000000000000000000000000000000000000000000000000000000000000000000000000000000000023230b0b000000000000000000,
  -- block 0x00b2
  0x2323090b1010101010101010101010101000101010101010101010101010101010101010101010101010101010101010101010100b0b23232323230000000b0b,
  -- block 0x00b3
  0x23233300000000000000000000000000000000000000000000002300000000000000000000000000000000000000000000000000000000000000000000000000,
  -- block 0x00b4
  0x00000000000000000000000000000000000000000000000000000000000000000000000000000000000000000000000002020202020202020202020202020202,
  -- block 0x00b5
  0x23000000000000232323232323232323232323232323000000000000000000000000000000000000000000000000000000000000000000000000000000000000,
  -- block 0x00b6
  0x0000000000000000000000000000000000000000000000000000000000002323232323232323232323230b0b0b23232300000000000000000000000000000000,
  -- block 0x00b7
  0x00000000000000000000000000000000000000000000000000000000000000000000000000000000000000000000000023232323230000000000000000000000,
  -- block 0x00b8
  0x00000000000000000000000000000000000000000000000000000000000000000000000000000000000000000000000023232323232323000000000000000000,
  -- block 0x00b9
  0x00000000000000000000000000000000000000000000000000000000000000000000000d0000000d0d0d0d000000000000000000000000000000000000000000,
  -- block 0x00ba
  0x00000000000000000000000000000023000b0b0b0b0b0b0b0b0b0b0b0b0b0b0b0b0b0b0b0b0b0b0b0b0b0b0b0b0b0b0b0b0b0b0b0b0b0b0b0b0b0b0b0b0b0b0b,
  -- block 0x00bb
  0x0b0b0b0b0b0b0b0b0000000000000023232323000000000000000000000000000000000000000000000000000000000000000000000000000000000000000000,
  -- block 0x00bc
  0x00000000000000000000000000000000000000000000000000000000000000000000000023000000000000000000000023230000000000000000000000000000,
  -- block 0x00bd
  0x00000000000000000000000000000000000000000000000000000000002323000202020200000000000000000000000000000000000000000000000000000000,
  -- block 0x00be
  0x23232323232323232323232323232323232323232323232323232323232323232323232323232323232323232323000023232323232323232323232323232323,
  -- block 0x00bf
  0x23232323232323000000000000000000000000000000000000000000000000000000000000000000000000000000000000000000000000000000000000000000,
  -- block 0x00c0
  0x00000000000000000000000000000000000000000000000000000000000000000000000000232323232300000023232323232302020202020202022323232323,
  -- block 0x00c1
  0x23232300002323232323232300000000000000000000000000000000000000000000000000000000000023232323000000000000000000000000000000000000,
  -- block 0x00c2
  0x00002323230000000000000000000000000000000000000000000000000000000000000000000000000000000000000000000000000000000000000000000000,
  -- block 0x00c3
  0x23232323232323232323232323232323232323232323232323232323232323232323232323232323232323232323232323232323232323000000002323232323,
  -- block 0x00c4
  0x23232323232323232323232323232323232323232323232323232323232323232323232323232323232323232300000000000000002300000000000000000000,
  -- block 0x00c5
  0x00000000230000000000000000000000000000000000000000000023232323230023232323232323232323232323232300000000000000000000000000000000,
  -- block 0x00c6
  0x23232323232323002323232323232323232323232323232323000023232323232323002323002323232323000000000000000000000000000000000000000000,
  -- block 0x00c7
  0x00000000000000000000000000000023000000000000000000000000000000000000000000000000000000000000000000000000000000000000000000000000,
  -- block 0x00c8
  0x00000000000000000000000000000000000000000000000000000000000000000000000000000000000000000000230000000000000000000000000000000000,
  -- block 0x00c9
  0x00000000000000000000000000000000000000000000000000000000000000000000000000000000000000002323232300000000000000000000000000000000,
  -- block 0x00ca
  0x00000000000000000000000000000000000000000000000000000000000000000000000000000000000000000000232300000000000000000000000000000000,
  -- block 0x00cb
  0x00000000000000000000000000000000000000000000000000000000000000000000002300002300000000000000232300000000002300000000000000000000,
  -- block 0x00cc
  0x00000000000000000000000000000000232323232323230000000000000000000000000000000000000000000000000000000000000000000000000000000000,
  -- block 0x00cd
  0x00000000232323232323230000000000000000000000000000000000000000000000000000000000000000000000000000000000000000000000000000000000,
  -- block 0x00ce
  0x00000000040000000000000000000000000000000000000000000000000000000000000000000000000000000404040400000000000000000000000000000000,
  -- block 0x00cf
  0x00000000000000000000000000000000000000000404040404040404040404040000000000000000000000000000000404000000000000000000000000000000,
  -- block 0x00d0
  0x04000000000000000000000000000004040000000000000000000000000000000000000000000000000000000000000000000000000004040404040404040404,
  -- block 0x00d1
  0x00000000000000000000000000000000000000000000000000000000000000000000000000000000000000000000000004040000000000000000000000000404,
  -- block 0x00d2
  0x00000000000000000000000000000400000404040404040404040400000000000000000000000000000000000000040404040404040404040404040404040404,
  -- block 0x00d3
  0x04040404040404040404040404040404040404040404040404040404040404040404040404040a0a0a0a0a0a0a0a0a0a0a0a0a0a0a0a0a0a0a0a0a0a0a0a0a0a,
  -- block 0x00d4
  0x00040404040404040404040404040404000000000000000000000400000000000000000000000000000000000000000400000404040404040404040004040404,
  -- block 0x00d5
  0x00000000000000000004040404040404040404040404040404040404040404040000000000000404040404040404040404040404040404040404040404040404,
  -- block 0x00d6
  0x04040404040404040404040404040404040404040404040404040404040404040404040404040404040404040404040404040404040404040404040404040404,
  -- block 0x00d7
  0x04040404040404040404040404040404040404040404040404040404040404040404000004040404040404040404040404040404040404040404040404040404,
  -- block 0x00d8
  0x04040404040404040404040404040404040404040000040400040404000004040404040404040404040404040404040404040404040404040404040404040404,
  -- block 0x00d9
  0x04040404040404040404040404040404040404040404040404040404040404040404040404040404040404040404040404000004040400040404042323232323,
  -- block 0x00da
  0x04040404040404040404040404040404040404040404040404040404040404040404040404040404040404040404040404040404040404040404040404040004,
  -- block 0x00db
  0x04040404040404040404040404040404040404040404040404040404040404040404040404040404040404040404040404040404040404040404040404040000,
  -- block 0x00dc
  0x00000000000000000004040404040400040404040404040404040404040404040404040404040404000000000000000404000004040404040404040000000000,
  -- block 0x00dd
  0x00000000000000040000040404040000040000000004040000000000000000000000000004040000040000000000000000040400000000000000000004000000,
  -- block 0x00de
  0x00000404040000000000000000000000000404040000000000000000040404000004000400000000040000000000000400000004000000000000040404040404,
  -- block 0x00df
  0x04040404040404040404040404040404000000000000000000000000000000000000000000000000000000000000000000000000000000000000000000000000,
  -- block 0x00e0
  0x04040404040400000000000404040404040404000004040404040404040404040404040404040000000400040404040404000004040404040404040404040404,
  -- block 0x00e1
  0x00000000000000000000000000000000000000000000000000000404040404040404040404040404040404040404040404040404040404040404040404040404,
  -- block 0x00e2
  0x00000000000000000000000004040404000000000000000000000000000000000000000000000000000000000000000000000000000000000000000000000000,
  -- block 0x00e3
  0x00000000000000000404040404040404000000000000000000000404040404040000000000000000000000000000000000000000000000000000000000000000,
  -- block 0x00e4
  0x00000000000000000404040404040404000000000000000000000000000000000000000000000000000000000000040400000000000000000000000004040404,
  -- block 0x00e5
  0x00000404040404040404040404040404000000000000000000040404040404040404040404040404040404040404040404040404040404040404040404040404,
  -- block 0x00e6
  0x00000000000000000000000004040404040404040404040404040404040404040404040404040404040404040404040404040404040404040404040004040404,
  -- block 0x00e7
  0x04040404040400040404040404040404040404040404040404040404040404040404040404040404040404040404040404040404040404040404040404040404,
  -- block 0x00e8
  0x00000000000000000000000000000000000000000000000004040404040404040000000000000000000000000000040404040404040404040404040404040404,
  -- block 0x00e9
  0x02020202020202020202020202020202020202020202020202020202020202022323232323232323232323232323232323232323232323232323232323232323,
  -- block 0x00ea
  0x02020202020202020202020202020202020202020202020202020202020202020202020202020202020202020202020202020202020202020202020202020202,
  -- block 0x00eb
  0x23232323232323232323232323232323232323232323232323232323232323232323232323232323232323232323232302020202020202020202020202020202]⟩

end Textseg
