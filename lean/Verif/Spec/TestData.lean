/-! Generated from the literals of src/test/test_eph.cpp. -/

namespace Ublox.Conformance

/-- The words of `msgs`. test_eph.cpp:45-51. -/
def gpsWords : List (List Nat) := [
  [0x22c00e31, 0xb04aebf3, 0x002dd80a, 0x8717a3e7, 0x3ff28987, 0x2b0c8c8f, 0x0aa7f16f, 0x34de804e, 0xbfe9d329, 0x93beda23],
  [0x22c00e31, 0xb04b0ccb, 0x1e67abc6, 0xb45ffedf, 0x0af3f61b, 0x0b3ec995, 0xaf8bdbc5, 0xa8658185, 0x815a783f, 0x14586cdc],
  [0x22c00e31, 0xb04b2d43, 0x1182e14b, 0x09057592, 0xbf518007, 0x2843254d, 0x975fa428, 0x3506dbe1, 0x92868a6e, 0xbfffee80],
  [0x22c00e31, 0xb04b4947, 0x00e40028, 0x16fcca86, 0x9a781ada, 0x8ee9581b, 0x3813faaa, 0x93a4798d, 0x80000f52, 0xbb0cf018],
  [0x22c00e31, 0xb04b6a2f, 0x13bf545b, 0x0d8fd7b7, 0x0a602fe6, 0xbf52c317, 0x232efafd, 0x80d3a86d, 0x83658d1c, 0x24799fe3],
  [0x22c00e31, 0xb04b8b13, 0x002dd80a, 0x8717a3e7, 0x3ff28987, 0x2b0c8c8f, 0x0aa7f16f, 0x34de804e, 0xbfe9d329, 0x93beda23]]

/-- The first 62 rows of `msg` (the test decodes 61, and the fourth data word of a message is read from the next row).
test_eph.cpp:109-196. -/
def gloWords : List (List Nat) := [
  [0x0d000406, 0x00020b04, 0x7a7d18e5, 0x29d01307, 0xac846000],
  [0x0d000406, 0x00020b04, 0x10df00df, 0x496534e2, 0x7b4d7000],
  [0x0d000406, 0x00020b04, 0x1c00b17c, 0x54680c74, 0x4d3ce800],
  [0x0d000406, 0x00020b04, 0x24a4eab3, 0x00001334, 0x448da800],
  [0x0d000406, 0x00020b04, 0x2d110000, 0x00001800, 0x02741000],
  [0x0d000406, 0x00020b04, 0x350c18e4, 0x97006e18, 0x0f464000],
  [0x0d000406, 0x00020b04, 0x3c94730c, 0xe334c05e, 0x1610e000],
  [0x0d000406, 0x00020b04, 0x4514c6c2, 0xedf098d0, 0x3bca2000],
  [0x0d000406, 0x00020b04, 0x4ec27bc6, 0x5db4bfdc, 0x15c4a000],
  [0x0d000406, 0x00020b04, 0x5ea59463, 0xb2b4bfe4, 0x16570800],
  [0x0d000406, 0x00020b04, 0x6524a589, 0x5b808b44, 0x19287800],
  [0x0d000406, 0x00020b04, 0x6e75d813, 0x7ab4bfd0, 0x0a676800],
  [0x0d000406, 0x00020b04, 0x752c11a5, 0xd720a7d0, 0x13eaa800],
  [0x0d000406, 0x00020b04, 0x7ec688a9, 0x73b4c004, 0x0a12a000],
  [0x0d000406, 0x00020b04, 0x085f2c0c, 0x7bb4457c, 0x0305e800],
  [0x0d000406, 0x00020b04, 0x1c00b17c, 0x54680c74, 0x4d3ce800],
  [0x0d000406, 0x00020b04, 0x2d110000, 0x00001800, 0x02741000],
  [0x0d000406, 0x00020b04, 0x353453c7, 0xfb406c74, 0x0fdff800],
  [0x0d000406, 0x3e020b04, 0x3b766955, 0x6f74bfd0, 0x13c0c800],
  [0x0d000406, 0x00020b04, 0x45380de3, 0xa2108a34, 0x32993800],
  [0x0d000406, 0x00020b04, 0x4e9c11ee, 0xfaf4bfd3, 0x12568000],
  [0x0d000406, 0x00020b04, 0x554408ff, 0xb4608ae4, 0x40fce000],
  [0x0d000406, 0x00020b04, 0x5e11e285, 0xb0b4bff7, 0x12611800],
  [0x0d000406, 0x00020b04, 0x654c2b6e, 0x6f305ef8, 0x33c5c000],
  [0x0d000406, 0x00020b04, 0x75541d87, 0x5120c164, 0x3e3b2800],
  [0x0d000406, 0x00020b04, 0x7b99b390, 0x37f4c02b, 0x05962000],
  [0x0d000406, 0x00020b04, 0x085f340c, 0x7bb4457c, 0x03061800],
  [0x0d000406, 0x00020b04, 0x10df00df, 0x496534e2, 0x7b4d7000],
  [0x0d000406, 0x00020b04, 0x1c00b17c, 0x54680c74, 0x4d3ce800],
  [0x0d000406, 0x00020b04, 0x2d110000, 0x00001800, 0x02741000],
  [0x0d000406, 0x00020b04, 0x355827a7, 0x9a607330, 0x286ca800],
  [0x0d000406, 0x94020b04, 0x3f580c34, 0xfef4bfec, 0x04032000],
  [0x0d000406, 0x00020b04, 0x456417c4, 0x35c0a1ec, 0x24c68000],
  [0x0d000406, 0x00020b04, 0x4d954cca, 0xab74bfdf, 0x05f72000],
  [0x0d000406, 0x00020b04, 0x55680c0c, 0xbd509cbc, 0x1123f800],
  [0x0d000406, 0x00020b04, 0x5a75887b, 0xc934c052, 0x0fe4b000],
  [0x0d000406, 0x00020b04, 0x6574150f, 0xe7508864, 0x14f3a000],
  [0x0d000406, 0x00020b04, 0x6eceb917, 0xe4b4bff3, 0x0d929000],
  [0x0d000406, 0x00020b04, 0x757c372d, 0x7bb09bb8, 0x1b2d9800],
  [0x0d000406, 0x00020b04, 0x7e1619b3, 0xa974bfee, 0x08052000],
  [0x0d000406, 0x00020b04, 0x085f3c0c, 0x7bb4457c, 0x0303e000],
  [0x0d000406, 0x00020b04, 0x1c00b17c, 0x54680c74, 0x4d3ce800],
  [0x0d000406, 0x00020b04, 0x3584034d, 0x7ce07858, 0x50b08800],
  [0x0d000406, 0x00020b04, 0x3858ca53, 0x4e74bf86, 0x07f07000],
  [0x0d000406, 0x00020b04, 0x458c804c, 0x8d70d7c0, 0x1902b000],
  [0x0d000406, 0x00020b04, 0x4fe1cab4, 0x0434bff4, 0x9646d800],
  [0x0d000406, 0x00020b04, 0x65981614, 0xee510340, 0x07953800],
  [0x0d000406, 0x00020b04, 0x7c04648e, 0xa8b4c015, 0x9824f000],
  [0x0d000406, 0x00020b04, 0x085f440c, 0x7bb4457c, 0x03041800],
  [0x0d000406, 0x00020b04, 0x10df00df, 0x496534e2, 0x7b4d7000],
  [0x0d000406, 0x00020b04, 0x1800b17c, 0x54680c74, 0x4d3e9000],
  [0x0d000406, 0x00020b04, 0x35a81ec3, 0xe640e9b4, 0x12801000],
  [0x0d000406, 0x00020b04, 0x4809f8eb, 0x1bb4bf80, 0x97d58000],
  [0x0d000406, 0x00020b04, 0x65c05e67, 0xee50fa04, 0x2629a800],
  [0x0d000406, 0x00020b04, 0x69a90a26, 0x6274bf7e, 0x96204800],
  [0x0d000406, 0x00020b04, 0x74a90a4b, 0x2fd83037, 0x6fb88800],
  [0x0d000406, 0x00020b04, 0x7a7d18e5, 0x29d01307, 0xac846000],
  [0x0d000406, 0x73020b04, 0x085f4c0c, 0x7bb4457c, 0x0301e000],
  [0x0d000406, 0x00020b04, 0x10df00df, 0x496534e2, 0x7b4d7000],
  [0x0d000406, 0x00020b04, 0x1c00b17c, 0x54680c74, 0x4d3ce800],
  [0x0d000406, 0x00020b04, 0x24a4eab3, 0x00001334, 0x448da800],
  [0x0d000406, 0x00020b04, 0x2d110000, 0x00001800, 0x02741000]]

/-- The words of `buffer`. test_eph.cpp:241-265. -/
def galWords : List (List Nat) := [
  [0x050da0ec, 0x08907cff, 0x30083c86, 0xc84a8000, 0xaaaa8000, 0x0000002a, 0xaaaabe26, 0x99ff4000, 0x00000001],
  [0x06000000, 0x01ffffff, 0x12481e89, 0xe2484000, 0xac868000, 0x0000002a, 0xaaaa7377, 0xc83f4000, 0xbfe93aa9],
  [0x09a9ca55, 0x55555555, 0x551e0060, 0x254f8000, 0xb60f8000, 0x0000002a, 0xaaaa9517, 0x66ff4000, 0x00000001],
  [0x09a9ca55, 0x55555555, 0x55420040, 0x1d5e0000, 0xa20f8000, 0x0000002a, 0xaaaa7b85, 0x273f4000, 0xbfe93aa9],
  [0x0aa03c4f, 0xe2f98403, 0xa40000ff, 0xeb008000, 0xb4878000, 0x0000002a, 0xaaaaad73, 0x72bf4000, 0x00000001],
  [0x0aa03c4f, 0xe22b2dfe, 0x120000ff, 0xeb008000, 0xb4878000, 0x0000002a, 0xaaaa7c86, 0x49ff4000, 0xbfe93aa9],
  [0x00955555, 0x55555555, 0x55555555, 0x50790000, 0x8d920000, 0x0000002a, 0xaaaa88af, 0x2aff4000, 0x00000001],
  [0x00955555, 0x55555555, 0x55555555, 0x50790000, 0x8d924000, 0x0000002a, 0xaaaa74d6, 0xd47f4000, 0xbfe93aa9],
  [0x00955555, 0x55555555, 0x55555555, 0x50790000, 0x8d928000, 0x0000002a, 0xaaaa9783, 0x123f4000, 0x00000001],
  [0x00955555, 0x55555555, 0x55555555, 0x50790000, 0x8d92c000, 0x0000002a, 0xaaaa6bfa, 0xecbf4000, 0xbfe93aa9],
  [0x00955555, 0x55555555, 0x55555555, 0x50790000, 0x8d930000, 0x0000002a, 0xaaaab6f7, 0x5b7f4000, 0x00000001],
  [0x00955555, 0x55555555, 0x55555555, 0x50790000, 0x8d934000, 0x0000002a, 0xaaaa4a8e, 0xa5ff4000, 0xbfe93aa9],
  [0x00955555, 0x55555555, 0x55555555, 0x50790000, 0x8d938000, 0x0000002a, 0xaaaaa9db, 0x63bf4000, 0x00000001],
  [0x00955555, 0x55555555, 0x55555555, 0x50790000, 0x8d93c000, 0x0000002a, 0xaaaa55a2, 0x9d3f4000, 0xbfe93aa9],
  [0x00955555, 0x55555555, 0x55555555, 0x50790000, 0x8d940000, 0x0000002a, 0xaaaaafcb, 0x4cbf4000, 0x00000001],
  [0x00955555, 0x55555555, 0x55555555, 0x50790000, 0x8d944000, 0x0000002a, 0xaaaa53b2, 0xb23f4000, 0xbfe93aa9],
  [0x02129669, 0xae0bc9c4, 0x5dd9d3ba, 0xbdf34000, 0x80ff4000, 0x0000002a, 0xaaaaa8ce, 0xe73f4000, 0x00000001],
  [0x011291e4, 0x22f62ac5, 0x000a6328, 0xaa04c000, 0xb613c000, 0x0000002a, 0xaaaa7516, 0xd8bf4000, 0xbfe93aa9],
  [0x04129300, 0x08001b47, 0x93fff99d, 0x08000000, 0x83804000, 0x0000002a, 0xaaaabbfe, 0x02ff4000, 0x00000001],
  [0x0312bff1, 0x0f48273e, 0xe3465882, 0x703e8000, 0x88dac000, 0x0000002a, 0xaaaa6e90, 0x377f4000, 0xbfe93aa9],
  [0x06000000, 0x01ffffff, 0x12481e89, 0xe2484000, 0xacac8000, 0x0000002a, 0xaaaa8d8c, 0x387f4000, 0x00000001],
  [0x050da0ec, 0x08907cff, 0x30083c86, 0xcaea8000, 0xaaaa8000, 0x0000002a, 0xaaaa7e1f, 0x5f7f4000, 0xbfe93aa9],
  [0x00955555, 0x55555555, 0x55555555, 0x50790000, 0x8d960000, 0x0000002a, 0xaaaab2e8, 0x917f4000, 0x00000001]]

end Ublox.Conformance
