import Verif.Basic

/-!
# The reference values for the hash functions of other authors

Copied from the sources by a script.
-/

namespace T1ha.Ref

/-- `refval_StadtX` (tests/stadtx/stadtx_thunk.c:32-53) -/
def refval_StadtX : List U64 :=
  [0x1D8FDD3902761988, 0x3E73CCEA8E7BD54E, 0xA43590A0D6F8C2E5, 0x7D3D74C2D6259671, 0xD7208FDA176BB9D2,
   0x001DAB349BE63C03, 0xDE0B7C82898ECECD, 0xA2B6C896B799DB01, 0x668A589EFD80D2EA, 0xCDF2E57587745456,
   0x56F69ED9BA2D20BE, 0x0B13A4425AF3F03B, 0x4C84D86118CDAC49, 0xF2A7F9EBA65C76E8, 0xEEDE04FF04ED7F52,
   0xC1BD47E8E384A965, 0xE3BA60B1B3C00B21, 0x2C08F618D6430962, 0x462CFF45FEBDC320, 0x97B0484A7B28A710,
   0x36E941F33D42AAEB, 0xED4C0116E649985F, 0xF1F34BA1B5F39635, 0x1F1AA01DCFAA1173, 0x9F61B2CF31B9B4C3,
   0x115B4048147C3684, 0x1C0E0768A16B6464, 0x3DDBE38A80A51F63, 0x705FD8A4EFB19585, 0xB73012A80F64D66C,
   0x6FD48B29F3C6D139, 0x56CF356428A43889, 0x4B858D94E9DECDBA, 0x81EDB9F56373AC80, 0xF60BF2ECDCABECC6,
   0x8ABDCCB98B998133, 0x085F1C19F547EADC, 0xCB435795F64E9553, 0x316FC6F580388FBE, 0x1B0E8FE6FB7EA1E7,
   0xFB3A2C79D53A2B2D, 0x6470C632D75ADF36, 0x3B5E28ED0C39A53D, 0x63963B97BD6FACBA, 0x271932D82564C326,
   0x76972A129F6BB4D0, 0x4478443177161BAE, 0x241C98736A3C7D8F, 0xC53E0DF5151F4335, 0x08D079ED3C7BC23F,
   0x8933C4E5216472C1, 0xAEAEFDDAD4111C76, 0xA7B51A722A85E8E4, 0x08B0E5A1B46C275A, 0x55881D991E32B4E7,
   0x6C725B1B8FDD598D, 0x9797C7C03BA0492E, 0xA1072974BF576D37, 0x610A517B2A6FD168, 0x64328409659C86C5,
   0x88DF17915E00C40A, 0xA6B5F8FFF65C2C0F, 0xD40CBCAC358DEC32, 0x02115A34E6A0ED62, 0xAA83E7415E9F40C0,
   0x3A54A2CFFCCDB157, 0x7759C39A6EB25EB5, 0x7BA43A2BD2FCF2E0, 0x267B3FC1DFCBCF48, 0x938113D2808C9755,
   0x9B7DB24F2F8AE5BE, 0xC4ADCEE6AF5353DC, 0xDD57A317D32ABE13, 0x55BE7E43FACA96DC, 0x7442CABF0D0B46AE,
   0xA5052ACBF7B1F40C, 0xA80CBC3FA292FB8A, 0xF7C5FD3F347C1718, 0x93E2F9C5471F8524, 0xFB130F138ED9E665,
   0x41736945A6E44A8E]

/-- `refval_wyhash_v7` (tests/wyhash/wyhash_thunk.c:46-87) -/
def refval_wyhash_v7 : List U64 :=
  [0x42BC986DC5EEC4D3, 0x33214C455B46F3A5, 0x3C7EB0CF25FEC53D, 0xA2779E9AE8667368, 0x244CE25B34F1A7C6,
   0x81FC2C02C9159AEF, 0xED465549F80AFF68, 0xC52A4A2569FCC2A3, 0x7A471FD1AAA5CAEE, 0xBED4FC242BBB84E1,
   0x002AFF6CAAD72D9A, 0xD962259BC2219CFF, 0x98DC859A4E52A5C2, 0xCD515E5A118BFF8E, 0x9D708B21CAFACCBF,
   0xB4D397722D29DD8E, 0x9AF656FE3443DC8E, 0x0199C2857DC8F252, 0x6C150A9FAF322194, 0xC82481A302B04512,
   0x230B94D429EDD7BB, 0xEFA3BF0492518AD2, 0xF1B2E7C9F209A3DD, 0x981FC23CA49C06CF, 0x69E3DDFAA85DDF2F,
   0x508698BE0F001518, 0xF5414CF0165E784F, 0x65F341C899C801A4, 0x4C1BA4FD609A6777, 0x4462F42A3DBE6D33,
   0x27E63A5A9B69E2B8, 0x70DB381691D2A561, 0xD99220B021D287D1, 0xF254F5D6FD5AA0F4, 0x1FF6F1471AA31B3E,
   0x42F6DA7B74EF1BBF, 0x5FF9431F03D6906F, 0x063BAD519C4F6A03, 0x0173194D209D7336, 0xF9ED153AD46D3A44,
   0x25573414AE3BEBD2, 0x243654CC1C5C0367, 0x2D9AF60E71488D7C, 0x699B05D6D432AE35, 0xF5A0C3CD8B99DF54,
   0xC2EDB15A89F92E02, 0x8D6410BD03DD7655, 0x32DE061DC7AAC972, 0x0DE1382B1214819E, 0xE83FA2412C855143,
   0x9E418E279447CBB3, 0x05D7B28BF50C4F63, 0x6612ABD6DAB0AEB6, 0x7B46C1C71BC8A2A1, 0xD5D7512D9930A94C,
   0x8F18E79AE0F2D28C, 0x02E5C3119946E6ED, 0x72F0917B51092A95, 0xFEB2C655C83DD8BA, 0x48D81C24400CDBF4,
   0x3E6E56A277EC1DC0, 0x0C233D62FD26F9F8, 0x824F4FCF50D91D09, 0xA28E9E9D503A1E14, 0xDE7DB070EBBC8FD4,
   0x960B26F979722378, 0x86AAC9D7AC6CFD9B, 0x1F58008965BEC64D, 0x60021E853B676D22, 0x7549581D400EB04B,
   0x34790F730EAF1944, 0xAB04E4787C19F219, 0xA177C45D95E2C2E6, 0xF0B5687A932DD21E, 0x711F571234EC4E6F,
   0x5A9D344D5E7D3F0E, 0x47882BD10383685B, 0x86A9CB99A3FF7EAB, 0x549C4C769EA34A69, 0x1165CC1F165932BB,
   0x01E29D669AC4796D]

/-- `kExpected64` (tests/highwayhash/verifier.c:14-36) -/
def kExpected64 : List U64 :=
  [0x907A56DE22C26E53, 0x7EAB43AAC7CDDD78, 0xB8D0569AB0B53D62, 0x5C6BEFAB8A463D80, 0xF205A46893007EDA,
   0x2B8A1668E4A94541, 0xBD4CCC325BEFCA6F, 0x4D02AE1738F59482, 0xE1205108E55F3171, 0x32D2644EC77A1584,
   0xF6E10ACDB103A90B, 0xC3BBF4615B415C15, 0x243CC2040063FA9C, 0xA89A58CE65E641FF, 0x24B031A348455A23,
   0x40793F86A449F33B, 0xCFAB3489F97EB832, 0x19FE67D2C8C5C0E2, 0x04DD90A69C565CC2, 0x75D9518E2371C504,
   0x38AD9B1141D3DD16, 0x0264432CCD8A70E0, 0xA9DB5A6288683390, 0xD7B05492003F028C, 0x205F615AEA59E51E,
   0xEEE0C89621052884, 0x1BFC1A93A7284F4F, 0x512175B5B70DA91D, 0xF71F8976A0A2C639, 0xAE093FEF1F84E3E7,
   0x22CA92B01161860F, 0x9FC7007CCF035A68, 0xA0C964D9ECD580FC, 0x2C90F73CA03181FC, 0x185CF84E5691EB9E,
   0x4FC1F5EF2752AA9B, 0xF5B7391A5E0A33EB, 0xB9B84B83B4E96C9C, 0x5E42FE712A5CD9B4, 0xA150F2F90C3F97DC,
   0x7FA522D75E2D637D, 0x181AD0CC0DFFD32B, 0x3889ED981E854028, 0xFB4297E8C586EE2D, 0x6D064A45BB28059C,
   0x90563609B3EC860C, 0x7AA4FCE94097C666, 0x1326BAC06B911E08, 0xB926168D2B154F34, 0x9919848945B1948D,
   0xA2A98FC534825EBE, 0xE9809095213EF0B6, 0x582E5483707BC0E9, 0x086E9414A88A6AF5, 0xEE86B98D20F6743D,
   0xF89B7FF609B1C0A7, 0x4C7D9CC19E22C3E8, 0x9A97005024562A6F, 0x5DD41CF423E6EBEF, 0xDF13609C0468E227,
   0x6E0DA4F64188155A, 0xB755BA4B50D7D4A1, 0x887A3484647479BD, 0xAB8EEBE9BF2139A0, 0x75542C5D4CD2A6FF]

end T1ha.Ref
