/-! Generated by tools/gen_names.py: a search tree from the numbers of the names (modulo 2^40-87) to the characters. -/
namespace Data

inductive NameTree where
  | leaf (c : Nat)
  | node (k : Nat) (l r : NameTree)

def nameTree_0 : NameTree := .node 0x3DFD8A14 (.node 0x231B1ACD (.node 0x5115E33 (.node 0x4F56F30 (.leaf 0x1F402) (.node 0x4F57930 (.leaf 0xAB33) (.leaf 0x275))) (.node 0x14BB6ECF (.node 0x84772E0 (.leaf 0x2024) (.leaf 0x1241A)) (.node 0x1B030ABB (.leaf 0xA747) (.leaf 0xECC)))) (.node 0x2D7BA798 (.node 0x2933E79B (.node 0x25722978 (.leaf 0x2EEF) (.leaf 0x1210B)) (.node 0x2CA54165 (.leaf 0x2A96) (.leaf 0x2957))) (.node 0x309F2F36 (.node 0x2DCCC748 (.leaf 0xBCD) (.leaf 0x477)) (.node 0x344E71D2 (.leaf 0x1D723) (.leaf 0xA6B2))))) (.node 0x424F5920 (.node 0x414E5420 (.node 0x3FB74A01 (.leaf 0x2715) (.node 0x407AE28F (.leaf 0x1048) (.leaf 0x2C43))) (.node 0x42415420 (.node 0x41524320 (.leaf 0x1F41C) (.leaf 0x2312)) (.node 0x42454420 (.leaf 0x1F987) (.leaf 0x1F6CF)))) (.node 0x434F5720 (.node 0x42555320 (.node 0x42554720 (.leaf 0x1F466) (.leaf 0x1F41B)) (.node 0x43415420 (.leaf 0x1F68C) (.leaf 0x1F408))) (.node 0x4454AB3A (.node 0x444F4720 (.leaf 0x1F404) (.leaf 0x1F415)) (.node 0x44564420 (.leaf 0x232B) (.leaf 0x1F4C0)))))
def nameTree_1 : NameTree := .node 0x6559852E (.node 0x53554E20 (.node 0x52414D20 (.node 0x50E61E28 (.leaf 0x1F416) (.leaf 0x120C8)) (.node 0x52415420 (.leaf 0x1F40F) (.leaf 0x1F400))) (.node 0x55430128 (.node 0x54350A28 (.leaf 0x2609) (.leaf 0x1A86)) (.node 0x584F5220 (.leaf 0x1A82) (.leaf 0x22BB)))) (.node 0x7B4207A4 (.node 0x6D57613F (.node 0x67699658 (.leaf 0xFCF0) (.leaf 0x16B6C)) (.node 0x7192EAFB (.leaf 0x10B99) (.leaf 0x1F265))) (.node 0x975343C5 (.node 0x7F4473A3 (.leaf 0x1D6C7) (.leaf 0x26F9)) (.node 0x991C41B6 (.leaf 0x2F31) (.leaf 0x27F8))))
def nameTree_2 : NameTree := .node 0x50494720 (.node 0x4B455920 (.node 0x45594520 (.node 0x45474720 (.leaf 0x1F442) (.node 0x454C4620 (.leaf 0x1F95A) (.leaf 0x1F9DD))) (.node 0x484A69D2 (.node 0x464F4720 (.leaf 0x1F441) (.leaf 0x1F32B)) (.node 0x494D5020 (.leaf 0xA6BE) (.leaf 0x1F47F)))) (.node 0x4E4F5220 (.node 0x4D414E20 (.node 0x4C454F20 (.leaf 0x1F511) (.leaf 0x264C)) (.node 0x4E303408 (.leaf 0x1F468) (.leaf 0x2939))) (.node 0x5039F728 (.node 0x4F574C20 (.leaf 0x22BD) (.leaf 0x1F989)) (.node 0x50494520 (.leaf 0x1A81) (.leaf 0x1F967))))) (nameTree_1)
def nameTree_3 : NameTree := .node 0xE2670F37 (.node 0xCF2D87AC (.node 0xCD2E5147 (.node 0xCD2C97A3 (.leaf 0x6A1) (.leaf 0x118A)) (.node 0xCD4497A3 (.leaf 0xA767) (.leaf 0x118C))) (.node 0xD37A29E6 (.node 0xD2AAD486 (.leaf 0x302F) (.leaf 0xA77F)) (.node 0xD665D25A (.leaf 0x2176) (.leaf 0x66F)))) (.node 0xF525C2B5 (.node 0xEEE7E2FA (.node 0xECE77C9B (.leaf 0x11D7) (.leaf 0xA7A3)) (.node 0xF1F74107 (.leaf 0xAA5C) (.leaf 0x1F6BA))) (.node 0xF77D301C (.node 0xF5D2BC02 (.leaf 0x252D) (.leaf 0x1D307)) (.node 0x1128F93AA (.leaf 0xFEA6) (.leaf 0xCE7))))
def nameTree_4 : NameTree := .node 0xCB69D45A (.node 0xA466F112 (.node 0x9F92B9C8 (.node 0x9E61C4C0 (.leaf 0x1F3F4) (.node 0x9E61ECA7 (.leaf 0x2F84) (.leaf 0x2F42))) (.node 0xA11AD235 (.node 0xA0C2A55D (.leaf 0x1D757) (.leaf 0x955)) (.node 0xA1EB0961 (.leaf 0x1028) (.leaf 0x2083)))) (.node 0xA95E3AC5 (.node 0xA7055A3E (.node 0xA55F71BB (.leaf 0x2F2C) (.leaf 0x2F2B)) (.node 0xA950E4BB (.leaf 0x10849) (.leaf 0x2F85))) (.node 0xB058B221 (.node 0xAA27EC0A (.leaf 0x2FD4) (.leaf 0x29A8)) (.node 0xC769D45A (.leaf 0x2910) (.leaf 0x66E))))) (nameTree_3)
def nameTree_5 : NameTree := .node 0x1595A5611 (.node 0x14F0FE4AB (.node 0x14910D7AB (.node 0x148D1E14D (.leaf 0x10177) (.leaf 0x27CA)) (.node 0x14B93E6E9 (.leaf 0xA6B) (.leaf 0x1D312))) (.node 0x1536095C0 (.node 0x151B29C05 (.leaf 0xA6A) (.leaf 0x1D869)) (.node 0x153D0D8D2 (.leaf 0x1F86C) (.leaf 0x23C2)))) (.node 0x165587F44 (.node 0x1596B1190 (.node 0x15964602A (.leaf 0x1207B) (.leaf 0x1222D)) (.node 0x15A692F5D (.leaf 0x122E3) (.leaf 0x1F4C4))) (.node 0x16E1B9E9B (.node 0x1670FD59B (.leaf 0x108E) (.leaf 0xF8D)) (.node 0x16F7F8D3B (.leaf 0xFEAC) (.leaf 0x1809))))
def nameTree_6 : NameTree := .node 0x1452CA457 (.node 0x128279222 (.node 0x117989DAA (.node 0x11491125B (.leaf 0x1F59D) (.node 0x1168AA6AA (.leaf 0x25A4) (.leaf 0xCEC))) (.node 0x11B3CB631 (.node 0x11B29170F (.leaf 0xCE8) (.leaf 0xA67F)) (.node 0x122A88269 (.leaf 0x3F2) (.leaf 0x70A)))) (.node 0x12FDDC4EC (.node 0x12A7A32A2 (.node 0x12891682A (.leaf 0x12318) (.leaf 0x66C)) (.node 0x12B6090E4 (.leaf 0x1ABB) (.leaf 0x655))) (.node 0x132982EDF (.node 0x13161723A (.leaf 0x2B3D) (.leaf 0x1F509)) (.node 0x1365BE27F (.leaf 0x1D72E) (.leaf 0x33D4))))) (nameTree_5)
def nameTree_7 : NameTree := .node 0x196CB3E8A (.node 0x191A51685 (.node 0x1845970E4 (.node 0x171A40A45 (.leaf 0x1D830) (.node 0x1810DD305 (.leaf 0x4DC3) (.leaf 0x1B3E))) (.node 0x18D87A7D3 (.node 0x18B19663D (.leaf 0x2B8A) (.leaf 0x11AF4)) (.node 0x18E3640A7 (.leaf 0xFC70) (.leaf 0x8E0)))) (.node 0x194B3E601 (.node 0x193BFDD42 (.node 0x191E2E673 (.leaf 0x3033) (.leaf 0xA901)) (.node 0x194B3DE01 (.leaf 0x1D7A9) (.leaf 0x1BC64))) (.node 0x194B3F201 (.node 0x194B3EC01 (.leaf 0x1BC63) (.leaf 0x1BC62)) (.node 0x195DDF973 (.leaf 0x1BC61) (.leaf 0xA906))))) (.node 0x199B949D0 (.node 0x197BC5FDB (.node 0x196EBF073 (.leaf 0x202F) (.node 0x196EE1348 (.leaf 0xA902) (.leaf 0x2088))) (.node 0x1986AADA5 (.node 0x1986AA2A5 (.leaf 0x12534) (.leaf 0x1BC15)) (.node 0x198D0C64C (.leaf 0x1BC58) (.leaf 0x1D91)))) (.node 0x19DFB1500 (.node 0x19A518A64 (.node 0x199FAB399 (.leaf 0x1D07D) (.leaf 0x2AB8)) (.node 0x19B8D2EE2 (.leaf 0x2F8D) (.leaf 0x1D7CF))) (.node 0x1A079ED06 (.node 0x19F8841E2 (.leaf 0x208B) (.leaf 0x1D7D4)) (.node 0x1A09638E2 (.leaf 0x12012) (.leaf 0x1D7D0)))))
def nameTree_8 : NameTree := .node 0x1DBDE3057 (.node 0x1DBDE2C57 (.node 0x1DBDE2A57 (.node 0x1DBDE2957 (.leaf 0xDB9) (.leaf 0x1D608)) (.node 0x1DBDE2B57 (.leaf 0x1D609) (.leaf 0x1D60A))) (.node 0x1DBDE2E57 (.node 0x1DBDE2D57 (.leaf 0x1D60B) (.leaf 0x1D60C)) (.node 0x1DBDE2F57 (.leaf 0x1D60D) (.leaf 0x1D60E)))) (.node 0x1DBDE3457 (.node 0x1DBDE3257 (.node 0x1DBDE3157 (.leaf 0x1D60F) (.leaf 0x1D610)) (.node 0x1DBDE3357 (.leaf 0x1D611) (.leaf 0x1D612))) (.node 0x1DBDE3657 (.node 0x1DBDE3557 (.leaf 0x1D613) (.leaf 0x1D614)) (.node 0x1DBDE3757 (.leaf 0x1D615) (.leaf 0x1D616))))
def nameTree_9 : NameTree := .node 0x1DAE1DEBC (.node 0x1BA94B7A3 (.node 0x1B1E46194 (.node 0x1A6FAE9A9 (.leaf 0x1C7A) (.node 0x1AC4E7CF4 (.leaf 0x1ED7) (.leaf 0x3255))) (.node 0x1B571EBC0 (.node 0x1B24D89F4 (.leaf 0xA698) (.leaf 0x3254)) (.node 0x1B81CE74F (.leaf 0x1F601) (.leaf 0x387)))) (.node 0x1C59EE057 (.node 0x1BF565054 (.node 0x1BEEB9C13 (.leaf 0x1D82B) (.leaf 0x1D7DB)) (.node 0x1BFC04BE0 (.leaf 0x2324) (.leaf 0x473))) (.node 0x1D13DB6CE (.node 0x1D113CFD3 (.leaf 0x6A7) (.leaf 0xD4D)) (.node 0x1D8D357C0 (.leaf 0xA7) (.leaf 0x16AF5))))) (nameTree_8)
def nameTree_10 : NameTree := .node 0x20B4417E9 (.node 0x1FEC89B11 (.node 0x1F87E2135 (.node 0x1F7466A82 (.leaf 0xD6B) (.leaf 0x27B7)) (.node 0x1FD41F6D4 (.leaf 0x2B99) (.leaf 0xD6A))) (.node 0x205856433 (.node 0x205736433 (.leaf 0xFEED) (.leaf 0x2CDE)) (.node 0x2084543F5 (.leaf 0x2CE0) (.leaf 0x9FB)))) (.node 0x218D58470 (.node 0x2167FB04A (.node 0x20E6D7033 (.leaf 0x1D90C) (.leaf 0x2CE2)) (.node 0x2174D2988 (.leaf 0x1DA57) (.leaf 0x71F))) (.node 0x219E9BFD6 (.node 0x2199DC229 (.leaf 0x19F) (.leaf 0xFC6D)) (.node 0x21AFF0852 (.leaf 0xFC97) (.leaf 0x1D93C))))
def nameTree_11 : NameTree := .node 0x1F742E9D4 (.node 0x1DBDE3F57 (.node 0x1DBDE3B57 (.node 0x1DBDE3957 (.leaf 0x1D617) (.node 0x1DBDE3A57 (.leaf 0x1D618) (.leaf 0x1D619))) (.node 0x1DBDE3D57 (.node 0x1DBDE3C57 (.leaf 0x1D61A) (.leaf 0x1D61B)) (.node 0x1DBDE3E57 (.leaf 0x1D61C) (.leaf 0x1D61D)))) (.node 0x1F068B395 (.node 0x1DBDE4157 (.node 0x1DBDE4057 (.leaf 0x1D61E) (.leaf 0x1D61F)) (.node 0x1DBDE4257 (.leaf 0x1D620) (.leaf 0x1D621))) (.node 0x1F30EA3CF (.node 0x1F11939BB (.leaf 0x265D) (.leaf 0xFB5D)) (.node 0x1F3E8C29B (.leaf 0x1D884) (.leaf 0x1F461))))) (nameTree_10)
def nameTree_12 : NameTree := .node 0x251EF016B (.node 0x251EB096B (.node 0x251E9016B (.node 0x251E6016B (.leaf 0x11613) (.leaf 0x1161F)) (.node 0x251EA016B (.leaf 0x11610) (.leaf 0x1162E))) (.node 0x251ED016B (.node 0x251EC016B (.leaf 0x11603) (.leaf 0x11615)) (.node 0x251EE016B (.leaf 0x1160E) (.leaf 0x11629)))) (.node 0x251F5016B (.node 0x251F2016B (.node 0x251F0016B (.leaf 0x11626) (.leaf 0x11621)) (.node 0x251F4016B (.leaf 0x11622) (.leaf 0x11628))) (.node 0x251F7156B (.node 0x251F6016B (.leaf 0x1162D) (.leaf 0x1161D)) (.node 0x251F8016B (.leaf 0x11605) (.leaf 0x1162A))))
def nameTree_13 : NameTree := .node 0x251E5016B (.node 0x23C81FB73 (.node 0x22F344FBD (.node 0x2221DD0FC (.leaf 0x1F38F) (.node 0x22790B9ED (.leaf 0x1B3C) (.leaf 0x2CF1))) (.node 0x233D88AA6 (.node 0x231BF32BC (.leaf 0x1DA63) (.leaf 0x25FF)) (.node 0x234E3229B (.leaf 0x456) (.leaf 0x1F02B)))) (.node 0x251E3016B (.node 0x2475886C6 (.node 0x23F4B0C1D (.leaf 0x1F8F) (.leaf 0x124B6)) (.node 0x248F22E2D (.leaf 0xA9EE) (.leaf 0x29A5))) (.node 0x251E3156B (.node 0x251E3096B (.leaf 0x11601) (.leaf 0x1160B)) (.node 0x251E4016B (.leaf 0x1160D) (.leaf 0x11624))))) (nameTree_12)
def nameTree_14 : NameTree := .node 0x29EEDE124 (.node 0x27A94B32C (.node 0x26878FC26 (.node 0x264B3A2B5 (.leaf 0x11627) (.node 0x266E9783C (.leaf 0x1F809) (.leaf 0xFB))) (.node 0x26AC418DF (.node 0x269622F3E (.leaf 0x252) (.leaf 0x2269)) (.node 0x26C23F447 (.leaf 0xFBA1) (.leaf 0x10DF)))) (.node 0x28F71B04C (.node 0x287456FFC (.node 0x282B68611 (.leaf 0x4B6) (.leaf 0x1207D)) (.node 0x2897B5423 (.leaf 0x47B) (.leaf 0x26AC))) (.node 0x2994AF95B (.node 0x28F77204C (.leaf 0x10ACC) (.leaf 0x10ACA)) (.node 0x29D527EF9 (.leaf 0x1F81E) (.leaf 0x2F57))))) (.node 0x2ABE7CBAF (.node 0x2A7E7CBAF (.node 0x2A6E1CBAF (.leaf 0x954) (.node 0x2A6E7CBAF (.leaf 0xAA21) (.leaf 0xAA1E))) (.node 0x2A8E7CBAF (.node 0x2A8E3CBAF (.leaf 0xAA0C) (.leaf 0xAA19)) (.node 0x2A95125B1 (.leaf 0xAA16) (.leaf 0x2F9F)))) (.node 0x2AFE7CBAF (.node 0x2AEB255AE (.node 0x2AD7EA3A6 (.leaf 0xAA09) (.leaf 0x1F639)) (.node 0x2AEE7CBAF (.leaf 0x1F95) (.leaf 0xAA0F))) (.node 0x2B0C42985 (.node 0x2B0B5A58B (.leaf 0xAA07) (.leaf 0x2688)) (.node 0x2B1F4CFAF (.leaf 0x1F477) (.leaf 0xAA1F)))))
def nameTree_15 : NameTree := .node 0x2ED049AE5 (.node 0x2ED0486E5 (.node 0x2E609076A (.node 0x2E549324E (.leaf 0x1D364) (.leaf 0x1D303)) (.node 0x2E66E5E36 (.leaf 0xA945) (.leaf 0x1D363))) (.node 0x2ED048EE5 (.node 0x2ED048AE5 (.leaf 0x31F5) (.leaf 0x31F8)) (.node 0x2ED0494E5 (.leaf 0x31F6) (.leaf 0x31F9)))) (.node 0x2ED099AE5 (.node 0x2ED078AE5 (.node 0x2ED0786E5 (.leaf 0x31F7) (.leaf 0x30F5)) (.node 0x2ED079AE5 (.leaf 0x30F6) (.leaf 0x31F0))) (.node 0x2ED0E86E5 (.node 0x2ED0A9AE5 (.leaf 0x31FA) (.leaf 0x31F4)) (.node 0x2ED0E8AE5 (.leaf 0x31FB) (.leaf 0x31FE))))
def nameTree_16 : NameTree := .node 0x2E06F5136 (.node 0x2B8E7CBAF (.node 0x2B3EEA5FA (.node 0x2B2E7CBAF (.leaf 0xAA0B) (.node 0x2B2F4CFAF (.leaf 0xAA11) (.leaf 0xAA17))) (.node 0x2B4EFCBAF (.node 0x2B4E7CBAF (.leaf 0x1D7E0) (.leaf 0xAA1C)) (.node 0x2B7F2CBAF (.leaf 0xAA1B) (.leaf 0xAA26)))) (.node 0x2C923F1DE (.node 0x2C0930947 (.node 0x2BE94B9AD (.leaf 0xAA14) (.leaf 0x1D82A)) (.node 0x2C3666F31 (.leaf 0x1B73) (.leaf 0x2A86))) (.node 0x2D406076A (.node 0x2D3EED5DB (.leaf 0x20B3) (.leaf 0x25A1)) (.node 0x2D7921AFC (.leaf 0xA943) (.leaf 0x29BE))))) (nameTree_15)
def nameTree_17 : NameTree := .node 0x33B7DE8E6 (.node 0x32D344B45 (.node 0x32A282CAC (.node 0x304F178D8 (.leaf 0x3C2) (.leaf 0x2EE8)) (.node 0x32B69B00A (.leaf 0x4DB) (.leaf 0x290E))) (.node 0x333E312E1 (.node 0x330BFF210 (.leaf 0x102F6) (.leaf 0x1DA52)) (.node 0x338EC1CE1 (.leaf 0x2E8C) (.leaf 0x2E8D)))) (.node 0x34ACFAEAF (.node 0x3445FD76F (.node 0x342C2BEC7 (.leaf 0x2C44) (.leaf 0x122D5)) (.node 0x34635BA31 (.leaf 0xFD2D) (.leaf 0x1211A))) (.node 0x351DA6EE7 (.node 0x34AD469E7 (.leaf 0x1F104) (.leaf 0x12002)) (.node 0x3566F3FCA (.leaf 0x12005) (.leaf 0x3017))))
def nameTree_18 : NameTree := .node 0x2FDFFF336 (.node 0x2ED1386E5 (.node 0x2ED0F8EE5 (.node 0x2ED0E94E5 (.leaf 0x31FC) (.node 0x2ED0E9AE5 (.leaf 0x31FF) (.leaf 0x31FD))) (.node 0x2ED1094E5 (.node 0x2ED0F9AE5 (.leaf 0x31F1) (.leaf 0x31F2)) (.node 0x2ED109AE5 (.leaf 0x31F3) (.leaf 0x30C3)))) (.node 0x2F3AFB624 (.node 0x2ED1594E5 (.node 0x2ED1586E5 (.leaf 0x30EE) (.leaf 0x30E3)) (.node 0x2ED159AE5 (.leaf 0x30E7) (.leaf 0x30E5))) (.node 0x2F65176F4 (.node 0x2F4B6BE8E (.leaf 0x10131) (.leaf 0x1D84D)) (.node 0x2FB675157 (.leaf 0x12428) (.leaf 0xE11))))) (nameTree_17)
def nameTree_19 : NameTree := .node 0x3C39308B7 (.node 0x3AFBC9C2B (.node 0x3A13F3F13 (.node 0x39F1B9B39 (.leaf 0x377) (.leaf 0x247D)) (.node 0x3AC50FF9A (.leaf 0x2620) (.leaf 0x168E3))) (.node 0x3B659AABE (.node 0x3B02A85A2 (.leaf 0x1105A) (.leaf 0x1BCD)) (.node 0x3BC4D7009 (.leaf 0x1D78) (.leaf 0x1F87F)))) (.node 0x3CF7A213D (.node 0x3CCF2F319 (.node 0x3C491B1E7 (.leaf 0x1D828) (.leaf 0x101FB)) (.node 0x3CEC01BFC (.leaf 0x25E9) (.leaf 0x11C59))) (.node 0x3D82BA7FF (.node 0x3D14D023A (.leaf 0x2172) (.leaf 0x29F6)) (.node 0x3DEEBB7A9 (.leaf 0x267A) (.leaf 0xD7D5))))
def nameTree_20 : NameTree := .node 0x39EAF5C25 (.node 0x379B2E4C1 (.node 0x35E78551F (.node 0x35BD46CE7 (.leaf 0x1208B) (.node 0x35E78321F (.leaf 0x12008) (.leaf 0x12418))) (.node 0x366291C55 (.node 0x360F881A9 (.leaf 0x12421) (.leaf 0x1689C)) (.node 0x366F35448 (.leaf 0x142A) (.leaf 0x1BC82)))) (.node 0x394B12E99 (.node 0x38CDA561A (.node 0x38B0B0BEA (.leaf 0x1DED) (.leaf 0xAFE)) (.node 0x38FA82499 (.leaf 0xFB82) (.leaf 0x2E94))) (.node 0x395D9ED6A (.node 0x3959CA846 (.leaf 0x2E95) (.leaf 0x233)) (.node 0x39663E269 (.leaf 0x2A88) (.leaf 0x2F45))))) (nameTree_19)
def nameTree_21 : NameTree := .node 0x4277344F9 (.node 0x404E9AB59 (.node 0x3EA4F8C25 (.node 0x3E3EEF4E2 (.leaf 0x1F389) (.node 0x3E92C0F43 (.leaf 0x4DD7) (.leaf 0x21E2))) (.node 0x3F821C5CA (.node 0x3F365135E (.leaf 0x1F45A) (.leaf 0x1D30F)) (.node 0x3FE08A5B7 (.leaf 0xFE77) (.leaf 0x11A09)))) (.node 0x417961BB7 (.node 0x41486CA31 (.node 0x4136B8AAD (.leaf 0x214B) (.leaf 0x1F7B8)) (.node 0x414EB9669 (.leaf 0x1D173) (.leaf 0xE4E))) (.node 0x41D2E3A51 (.node 0x41B6B39DC (.leaf 0xFE2E) (.leaf 0xAA5E)) (.node 0x4210329AE (.leaf 0x1F37D) (.leaf 0xABE4))))) (.node 0x4362F3FE8 (.node 0x42D7B29B4 (.node 0x42D7B15B4 (.leaf 0x1ABD) (.node 0x42D7B1DB4 (.leaf 0x1700) (.leaf 0x1701))) (.node 0x43585EECE (.node 0x43252C0A7 (.leaf 0x1702) (.leaf 0x109E2)) (.node 0x4362B52E8 (.leaf 0x1D87C) (.leaf 0x1040C)))) (.node 0x4362F4BE8 (.node 0x4362F46E8 (.node 0x4362F45E8 (.leaf 0x10419) (.leaf 0x10422)) (.node 0x4362F47E8 (.leaf 0x10423) (.leaf 0x10424))) (.node 0x4362F50E8 (.node 0x4362F4CE8 (.leaf 0x10421) (.leaf 0x1041D)) (.node 0x4363942E8 (.leaf 0x10427) (.leaf 0x10426)))))
def nameTree_22 : NameTree := .node 0x48902B3BE (.node 0x486D67B25 (.node 0x47E18A00F (.node 0x47D9200BB (.leaf 0x682) (.leaf 0x4E9)) (.node 0x483616528 (.leaf 0x29CB) (.leaf 0x656))) (.node 0x48902A9BE (.node 0x48902A5BE (.leaf 0xA70A) (.leaf 0xAA00)) (.node 0x48902ADBE (.leaf 0xAA03) (.leaf 0xAA01)))) (.node 0x48A69A89A (.node 0x48A69A09A (.node 0x48902B9BE (.leaf 0xAA05) (.leaf 0xAA02)) (.node 0x48A69A49A (.leaf 0xA984) (.leaf 0xA98C))) (.node 0x48A69B49A (.node 0x48A69AE9A (.leaf 0xA986) (.leaf 0xA98E)) (.node 0x49049AEC4 (.leaf 0xA988) (.leaf 0x1D31F))))
def nameTree_23 : NameTree := .node 0x47654D72E (.node 0x44CC21ED4 (.node 0x43B9328C1 (.node 0x436414EE8 (.leaf 0x1040D) (.node 0x4381F7E21 (.leaf 0x1040E) (.leaf 0x120F8))) (.node 0x4462953AF (.node 0x43F6BB1E4 (.leaf 0x1D71C) (.leaf 0x120CF)) (.node 0x4490589A6 (.leaf 0x1D8D8) (.leaf 0x1226E)))) (.node 0x45BB69FB4 (.node 0x45364DCF7 (.node 0x44FA1F6B8 (.leaf 0x32B2) (.leaf 0xA02)) (.node 0x45B5F4A8C (.leaf 0x16F0) (.leaf 0x1D1B0))) (.node 0x4677AC320 (.node 0x4619BC6C0 (.leaf 0xCA0) (.leaf 0xFB78)) (.node 0x46A3F7308 (.leaf 0x26A5) (.leaf 0x2AC9))))) (nameTree_22)
def nameTree_24 : NameTree := .node 0x4F51893A3 (.node 0x4EF18A1A3 (.node 0x4EF1893A3 (.node 0x4E918A7A3 (.leaf 0x27DD) (.leaf 0x1197)) (.node 0x4EF189BA3 (.leaf 0xD7B2) (.leaf 0x1188))) (.node 0x4F4254A38 (.node 0x4F06986D6 (.leaf 0x1187) (.leaf 0x3356)) (.node 0x4F4509BEA (.leaf 0x1FC8) (.leaf 0x95C)))) (.node 0x4F518A7A3 (.node 0x4F5189BA3 (.node 0x4F51897A3 (.leaf 0x118E) (.leaf 0x1190)) (.node 0x4F518A1A3 (.leaf 0x1194) (.leaf 0xD7B8))) (.node 0x4F8CCFEDB (.node 0x4F525441A (.leaf 0x1193) (.leaf 0x1F19)) (.node 0x4FA96EBE5 (.leaf 0x1F1A4) (.leaf 0x1375))))
def nameTree_25 : NameTree := .node 0x4E2C944F4 (.node 0x4CAEA28FF (.node 0x4C297F2AE (.node 0x4A773A562 (.leaf 0xA970) (.node 0x4B7208598 (.leaf 0x114C3) (.leaf 0x1F94C))) (.node 0x4C47D2B24 (.node 0x4C389307B (.leaf 0x8A5) (.leaf 0x217C)) (.node 0x4C5C04BE0 (.leaf 0x2177) (.leaf 0xA647)))) (.node 0x4DA448751 (.node 0x4D203421D (.node 0x4CD46FC66 (.leaf 0x1F53A) (.leaf 0x1220F)) (.node 0x4D2034B1D (.leaf 0x120E7) (.leaf 0x124C7))) (.node 0x4E118A1A3 (.node 0x4DD28A7E4 (.leaf 0xA966) (.leaf 0x17E7)) (.node 0x4E118A7A3 (.leaf 0x1178) (.leaf 0x11A4))))) (nameTree_24)
def nameTree_26 : NameTree := .node 0x537841201 (.node 0x534A0AA7F (.node 0x530922D83 (.node 0x52B98F39C (.leaf 0x104C9) (.leaf 0x1D10B)) (.node 0x53161C1AA (.leaf 0x1D734) (.leaf 0xFFB7))) (.node 0x537821201 (.node 0x537810E01 (.leaf 0x1F6AE) (.leaf 0x16AE2)) (.node 0x537831C01 (.leaf 0x16ADF) (.leaf 0x16ADE)))) (.node 0x5378E1C01 (.node 0x537891C01 (.node 0x537850E01 (.leaf 0x16AEB) (.leaf 0x16AD3)) (.node 0x5378A0E01 (.leaf 0x16AD9) (.leaf 0x16AD1))) (.node 0x537921201 (.node 0x5378F0E01 (.leaf 0x16AE9) (.leaf 0x16AE5)) (.node 0x537931C01 (.leaf 0x16AD2) (.leaf 0x16AE1))))
def nameTree_27 : NameTree := .node 0x5292071E4 (.node 0x519F10889 (.node 0x50EB1ADFF (.node 0x5080A7BF7 (.leaf 0x2692) (.node 0x50D81E220 (.leaf 0xAB43) (.leaf 0x1D1E8))) (.node 0x5126E56FE (.node 0x512008751 (.leaf 0x1F3E3) (.leaf 0x1115)) (.node 0x517989519 (.leaf 0x10B51) (.leaf 0x3245)))) (.node 0x525D3B24F (.node 0x520D120B1 (.node 0x51EF10DAF (.leaf 0x1F5A5) (.leaf 0x1F641)) (.node 0x523A255A7 (.leaf 0x2015) (.leaf 0x68F))) (.node 0x5291771E4 (.node 0x5276F625F (.leaf 0x1D89F) (.leaf 0x10B46)) (.node 0x5291C71E4 (.leaf 0x104BD) (.leaf 0x104C5))))) (nameTree_26)
def nameTree_28 : NameTree := .node 0x579E2B3F1 (.node 0x54B864CC8 (.node 0x538C59CC7 (.node 0x537960E01 (.leaf 0x16AE3) (.node 0x537991C01 (.leaf 0x16ADB) (.leaf 0x16ADC))) (.node 0x53EA4F192 (.node 0x53B2B19BF (.leaf 0x24C) (.leaf 0x1D9B0)) (.node 0x5495E78CD (.leaf 0x1D190) (.leaf 0xA6EE)))) (.node 0x5692F728A (.node 0x55FB0F247 (.node 0x55159E8E2 (.leaf 0x2D6F) (.leaf 0x2231)) (.node 0x561395B2A (.leaf 0x10A1D) (.leaf 0xE1C))) (.node 0x56EB3EAE1 (.node 0x56CB4E6E6 (.leaf 0x2799) (.leaf 0x324C)) (.node 0x5759F7F96 (.leaf 0x2F9) (.leaf 0x1D81B))))) (.node 0x59496660E (.node 0x585E7BDF2 (.node 0x58509ED09 (.leaf 0x1F31F) (.node 0x585903A00 (.leaf 0x2587) (.leaf 0x1F519))) (.node 0x58C1A18B1 (.node 0x5873A7316 (.leaf 0x1F3D2) (.leaf 0x48C)) (.node 0x59081D5A3 (.leaf 0x3C) (.leaf 0x2E2C)))) (.node 0x5A1E18491 (.node 0x5A1E18291 (.node 0x599B9BA7A (.leaf 0x1D9D7) (.leaf 0x329E)) (.node 0x5A1E18391 (.leaf 0x1D00) (.leaf 0x299))) (.node 0x5A1E18691 (.node 0x5A1E18591 (.leaf 0x1D04) (.leaf 0x1D05)) (.node 0x5A1E18791 (.leaf 0x1D07) (.leaf 0xA730)))))
def nameTree_29 : NameTree := .node 0x5C5557D89 (.node 0x5AE418E8E (.node 0x5A1E19B91 (.node 0x5A1E19A91 (.leaf 0x1D21) (.leaf 0x28F)) (.node 0x5A83754EA (.leaf 0x1D22) (.leaf 0x10122))) (.node 0x5B8CF0B89 (.node 0x5B2DA00B5 (.leaf 0x10FE) (.leaf 0x3233)) (.node 0x5BD0AF778 (.leaf 0x1F929) (.leaf 0x169DA)))) (.node 0x5CDDFF2CB (.node 0x5CB05321D (.node 0x5C5CA35A8 (.leaf 0xFECA) (.leaf 0x6AE)) (.node 0x5CC9C3E3B (.leaf 0x120E9) (.leaf 0x2B42))) (.node 0x5CF8B916D (.node 0x5CF8A2E04 (.leaf 0x1691) (.leaf 0x2ADB)) (.node 0x5CFD5E8C2 (.leaf 0x1DA2F) (.leaf 0x103CF))))
def nameTree_30 : NameTree := .node 0x5A1E19891 (.node 0x5A1E18F91 (.node 0x5A1E18B91 (.node 0x5A1E18991 (.leaf 0x262) (.node 0x5A1E18A91 (.leaf 0x29C) (.leaf 0x26A))) (.node 0x5A1E18D91 (.node 0x5A1E18C91 (.leaf 0x1D0A) (.leaf 0x1D0B)) (.node 0x5A1E18E91 (.leaf 0x29F) (.leaf 0x1D0D)))) (.node 0x5A1E19491 (.node 0x5A1E19191 (.node 0x5A1E19091 (.leaf 0x274) (.leaf 0x1D0F)) (.node 0x5A1E19391 (.leaf 0x1D18) (.leaf 0x280))) (.node 0x5A1E19691 (.node 0x5A1E19591 (.leaf 0xA731) (.leaf 0x1D1B)) (.node 0x5A1E19791 (.leaf 0x1D1C) (.leaf 0x1D20))))) (nameTree_29)
def nameTree_31 : NameTree := .node 0x629C170D4 (.node 0x6224696DB (.node 0x61DE9B1AD (.node 0x614EAB9EE (.leaf 0x29ED) (.leaf 0x5F1)) (.node 0x621B8F3CA (.leaf 0x10127) (.leaf 0x101DD))) (.node 0x629C16DD4 (.node 0x629C169D4 (.leaf 0x16869) (.leaf 0x250)) (.node 0x629C16FD4 (.leaf 0x1DD) (.leaf 0x1D77)))) (.node 0x629C175D4 (.node 0x629C173D4 (.node 0x629C171D4 (.leaf 0x265) (.leaf 0x1D09)) (.node 0x629C174D4 (.leaf 0x29E) (.leaf 0xA781))) (.node 0x629C17CD4 (.node 0x629C17AD4 (.leaf 0x26F) (.leaf 0x279)) (.node 0x629C17ED4 (.leaf 0x287) (.leaf 0x28C))))
def nameTree_32 : NameTree := .node 0x6138B7922 (.node 0x5FB228751 (.node 0x5DA1F662E (.node 0x5D7136685 (.leaf 0x33A4) (.node 0x5D71C64D2 (.leaf 0x1D740) (.leaf 0x1D738))) (.node 0x5F75DBE5A (.node 0x5DEA70F96 (.leaf 0x1D73F) (.leaf 0x21BC)) (.node 0x5F8CB47AD (.leaf 0x271E) (.leaf 0x231)))) (.node 0x6054D3932 (.node 0x60489265D (.node 0x5FC76798B (.leaf 0x1120) (.leaf 0x2AFD)) (.node 0x604965975 (.leaf 0x1F583) (.leaf 0x214))) (.node 0x60E3A681E (.node 0x6067869EE (.leaf 0xE1E) (.leaf 0xFBBF)) (.node 0x6122ACA29 (.leaf 0x23EC) (.leaf 0x1D03E))))) (nameTree_31)
def nameTree_33 : NameTree := .node 0x66EBE6696 (.node 0x66C305465 (.node 0x665CFEA36 (.node 0x665841A67 (.leaf 0x263A) (.leaf 0x1D02A)) (.node 0x6692CFA49 (.leaf 0xFCD2) (.leaf 0x1D73))) (.node 0x66C3E31A2 (.node 0x66C305A65 (.leaf 0x11040) (.leaf 0x1103E)) (.node 0x66E48AC46 (.leaf 0x8AE) (.leaf 0x250D)))) (.node 0x68C6824DA (.node 0x6778E2CAF (.node 0x6716AF764 (.leaf 0x10093) (.leaf 0x12352)) (.node 0x68C6823DA (.leaf 0xB7) (.leaf 0xE0061))) (.node 0x68C6826DA (.node 0x68C6825DA (.leaf 0xE0062) (.leaf 0xE0063)) (.node 0x68C6827DA (.leaf 0xE0064) (.leaf 0xE0065))))
def nameTree_34 : NameTree := .node 0x65F95AC2A (.node 0x63D179594 (.node 0x62D4AD2A3 (.node 0x629C181D4 (.leaf 0x28D) (.node 0x62C11D50F (.leaf 0x28E) (.leaf 0x3379))) (.node 0x63AC5166B (.node 0x62E79E3CD (.leaf 0x2DF4) (.leaf 0x2C34)) (.node 0x63B034603 (.leaf 0xFD26) (.leaf 0x1012B)))) (.node 0x64C823633 (.node 0x64104A424 (.node 0x63DFA8F2A (.leaf 0x10123) (.leaf 0x1F7C1)) (.node 0x646F07C1A (.leaf 0x12504) (.leaf 0x840))) (.node 0x64E36633F (.node 0x64C825933 (.leaf 0x12426) (.leaf 0x12430)) (.node 0x652AA2439 (.leaf 0x2C7E) (.leaf 0x2B95))))) (nameTree_33)
def nameTree_35 : NameTree := .node 0x68C6837DA (.node 0x68C682FDA (.node 0x68C682BDA (.node 0x68C6829DA (.leaf 0xE0066) (.node 0x68C682ADA (.leaf 0xE0067) (.leaf 0xE0068))) (.node 0x68C682DDA (.node 0x68C682CDA (.leaf 0xE0069) (.leaf 0xE006A)) (.node 0x68C682EDA (.leaf 0xE006B) (.leaf 0xE006C)))) (.node 0x68C6833DA (.node 0x68C6831DA (.node 0x68C6830DA (.leaf 0xE006D) (.leaf 0xE006E)) (.node 0x68C6832DA (.leaf 0xE006F) (.leaf 0xE0070))) (.node 0x68C6835DA (.node 0x68C6834DA (.leaf 0xE0071) (.leaf 0xE0072)) (.node 0x68C6836DA (.leaf 0xE0073) (.leaf 0xE0074))))) (.node 0x690D28A61 (.node 0x68C683ADA (.node 0x68C6838DA (.leaf 0xE0075) (.node 0x68C6839DA (.leaf 0xE0076) (.leaf 0xE0077))) (.node 0x68C683CDA (.node 0x68C683BDA (.leaf 0xE0078) (.leaf 0xE0079)) (.node 0x68DFD2E16 (.leaf 0xE007A) (.leaf 0x1F7C8)))) (.node 0x6BAA57A0C (.node 0x6A9089D9A (.node 0x6982CE5C7 (.leaf 0x6EE) (.leaf 0x3307)) (.node 0x6B0A1F2A7 (.leaf 0x30FD) (.leaf 0x1D09C))) (.node 0x6C9DA8531 (.node 0x6C4E69042 (.leaf 0x141E) (.leaf 0xFCF3)) (.node 0x6D0A5FC8A (.leaf 0xFB47) (.leaf 0x1F98)))))
def nameTree_36 : NameTree := .node 0x733475288 (.node 0x72D74D923 (.node 0x72D0C5F25 (.node 0x72B166400 (.leaf 0x20D0) (.leaf 0x254B)) (.node 0x72D567D7F (.leaf 0x1EEC) (.leaf 0x2391))) (.node 0x7333D5E88 (.node 0x7333C5E88 (.leaf 0xBFA) (.leaf 0x1D6ED)) (.node 0x7333F5288 (.leaf 0x1D6EE) (.leaf 0x1D6F1)))) (.node 0x7453E7CED (.node 0x73720DEDB (.node 0x736712A8E (.leaf 0x1D6EF) (.leaf 0x23C1)) (.node 0x743BAE7B6 (.leaf 0x29DC) (.leaf 0x4CF))) (.node 0x755C238E1 (.node 0x748C2162B (.leaf 0xFE88) (.leaf 0x325D)) (.node 0x759BB9E08 (.leaf 0xFC3F) (.leaf 0x1E8D0))))
def nameTree_37 : NameTree := .node 0x72A811D7C (.node 0x6FE42FC83 (.node 0x6EC86B4A7 (.node 0x6E281E5C4 (.leaf 0x2A8) (.node 0x6E281E6C9 (.leaf 0x2CE5) (.leaf 0x2CE6))) (.node 0x6F1D9F821 (.node 0x6EDA4FF40 (.leaf 0x1D1E4) (.leaf 0x20AA)) (.node 0x6FA48BF73 (.leaf 0x12115) (.leaf 0x1F2C)))) (.node 0x71E6C0B37 (.node 0x703D52B20 (.node 0x702792FAA (.leaf 0x1F1B) (.leaf 0x600)) (.node 0x71661A064 (.leaf 0x22F5) (.leaf 0x2A68))) (.node 0x7246B1837 (.node 0x71ECACFB2 (.leaf 0x2784) (.leaf 0x25A3)) (.node 0x729609FFD (.leaf 0x2783) (.leaf 0x1843))))) (nameTree_36)
def nameTree_38 : NameTree := .node 0x7A992B9C8 (.node 0x7A5AFC07F (.node 0x7A31512D7 (.node 0x7A2405058 (.leaf 0x3291) (.leaf 0x11ACA)) (.node 0x7A53F5058 (.leaf 0x2DE) (.leaf 0x11AC7))) (.node 0x7A9363B63 (.node 0x7A7405058 (.leaf 0x32AB) (.leaf 0x11AD1)) (.node 0x7A991344B (.leaf 0x1B71) (.leaf 0xFE6B)))) (.node 0x7B2BB19B8 (.node 0x7ACD092DC (.node 0x7AB405058 (.leaf 0x1D75E) (.leaf 0x11ACF)) (.node 0x7AF58F9F2 (.leaf 0xE005C) (.leaf 0x1F5AE))) (.node 0x7B6613EC3 (.node 0x7B4D09A78 (.leaf 0x2320) (.leaf 0x65E)) (.node 0x7B8B87BC0 (.leaf 0x2B6C) (.leaf 0xAB48))))
def nameTree_39 : NameTree := .node 0x79FAEB27F (.node 0x782F7DD70 (.node 0x76C5E6C16 (.node 0x763B7ABD4 (.leaf 0x1252D) (.node 0x767A0F2AB (.leaf 0xAAF4) (.leaf 0x1EE7))) (.node 0x77E4AE6B7 (.node 0x7756280B0 (.leaf 0xFC06) (.leaf 0xA68B)) (.node 0x782091123 (.leaf 0x232C) (.leaf 0x1E48)))) (.node 0x7928BBD67 (.node 0x78A874DCF (.node 0x7896B7125 (.leaf 0x272A) (.leaf 0x2790)) (.node 0x79121E758 (.leaf 0xFB3C) (.leaf 0x10126))) (.node 0x79A405058 (.node 0x793AE8C22 (.leaf 0x29DF) (.leaf 0x1D86)) (.node 0x79CC1E25C (.leaf 0x11AD4) (.leaf 0x1D103))))) (nameTree_38)
def nameTree_40 : NameTree := .node 0x808564211 (.node 0x8014C4211 (.node 0x7FC0BFB42 (.node 0x7FA4C4211 (.leaf 0x183B) (.leaf 0x1840)) (.node 0x7FE4918A2 (.leaf 0x2ECC) (.leaf 0x2A46))) (.node 0x80581E553 (.node 0x802574211 (.leaf 0x1831) (.leaf 0x183C)) (.node 0x8084C4A11 (.leaf 0x30E) (.leaf 0x1841)))) (.node 0x813DEAFCD (.node 0x813D6A7CD (.node 0x80D430BEA (.leaf 0x183F) (.leaf 0x1F800)) (.node 0x813D6A824 (.leaf 0x1524) (.leaf 0x1569))) (.node 0x8174D2988 (.node 0x813E4B5CD (.leaf 0x151C) (.leaf 0x1520)) (.node 0x8293DF1B9 (.leaf 0x729) (.leaf 0x3138))))
def nameTree_41 : NameTree := .node 0x7F94C4211 (.node 0x7E74881BF (.node 0x7DBC0FB9F (.node 0x7C9FE7C23 (.leaf 0xFD16) (.node 0x7D9289F3B (.leaf 0x1D7CB) (.leaf 0x17E3))) (.node 0x7E7487FBF (.node 0x7E0F86E97 (.leaf 0x4D8) (.leaf 0x1223D)) (.node 0x7E74880BF (.leaf 0x1DA9B) (.leaf 0x1DA9C)))) (.node 0x7F07B8EE0 (.node 0x7E74883BF (.node 0x7E74882BF (.leaf 0x1DA9D) (.leaf 0x1DA9E)) (.node 0x7EF524811 (.leaf 0x1DA9F) (.leaf 0x1829))) (.node 0x7F14C4A11 (.node 0x7F14C4211 (.leaf 0x8F4) (.leaf 0x1834)) (.node 0x7F6454211 (.leaf 0x1842) (.leaf 0x183E))))) (nameTree_40)
def nameTree_42 : NameTree := .node 0x87C963EBC (.node 0x83C09E07D (.node 0x830600EF7 (.node 0x82E0E22B7 (.leaf 0x2A65) (.node 0x82EE9B06B (.leaf 0x1D082) (.leaf 0x774))) (.node 0x834DA7834 (.node 0x830A1E408 (.leaf 0x241B) (.leaf 0x12289)) (.node 0x83752C43B (.leaf 0x3D6) (.leaf 0x1017B)))) (.node 0x86BBA7154 (.node 0x8426BD6B5 (.node 0x83DC52012 (.leaf 0x29AD) (.leaf 0x32B3)) (.node 0x84624858B (.leaf 0x10125) (.leaf 0xA67D))) (.node 0x8799AAF64 (.node 0x87316B296 (.leaf 0x2F0) (.leaf 0x10099)) (.node 0x87B640414 (.leaf 0x1D7D) (.leaf 0x1D8A8))))) (.node 0x8A0A8E399 (.node 0x88704EA09 (.node 0x880C037E5 (.leaf 0x2D3) (.node 0x8849C123E (.leaf 0xD7D7) (.leaf 0x1DA29))) (.node 0x88D11D50F (.node 0x8887EF80D (.leaf 0x51E) (.leaf 0xB20)) (.node 0x89E8BF567 (.leaf 0x33A6) (.leaf 0x12013)))) (.node 0x8BAA23214 (.node 0x8B69C7F62 (.node 0x8B5CBE731 (.leaf 0x225F) (.leaf 0x2382)) (.node 0x8B9F511F7 (.leaf 0x1D8FA) (.leaf 0x1D1BD))) (.node 0x8C99DDCD5 (.node 0x8BBF736F3 (.leaf 0x2E39) (.leaf 0x1D9AD)) (.node 0x8CE2BA922 (.leaf 0x1F7B6) (.leaf 0x17E8)))))
def nameTree_43 : NameTree := .node 0x8E7907858 (.node 0x8E7907458 (.node 0x8E7907258 (.node 0x8E7907158 (.leaf 0x1D526) (.leaf 0x1D527)) (.node 0x8E7907358 (.leaf 0x1D528) (.leaf 0x1D529))) (.node 0x8E7907658 (.node 0x8E7907558 (.leaf 0x1D52A) (.leaf 0x1D52B)) (.node 0x8E7907758 (.leaf 0x1D52C) (.leaf 0x1D52D)))) (.node 0x8E7907C58 (.node 0x8E7907A58 (.node 0x8E7907958 (.leaf 0x1D52E) (.leaf 0x1D52F)) (.node 0x8E7907B58 (.leaf 0x1D530) (.leaf 0x1D531))) (.node 0x8E7907E58 (.node 0x8E7907D58 (.leaf 0x1D532) (.leaf 0x1D533)) (.node 0x8E7907F58 (.leaf 0x1D534) (.leaf 0x1D535))))
def nameTree_44 : NameTree := .node 0x8E7907058 (.node 0x8E7906858 (.node 0x8DCD6F4BE (.node 0x8DC917359 (.leaf 0x256E) (.node 0x8DCB0256A (.leaf 0x1D91E) (.leaf 0x1F2))) (.node 0x8E1DD95AF (.node 0x8DFCA88DA (.leaf 0x1011F) (.leaf 0x2495)) (.node 0x8E2B4DCBD (.leaf 0x1D9B) (.leaf 0xFE8A)))) (.node 0x8E7906C58 (.node 0x8E7906A58 (.node 0x8E7906958 (.leaf 0x1D51E) (.leaf 0x1D51F)) (.node 0x8E7906B58 (.leaf 0x1D520) (.leaf 0x1D521))) (.node 0x8E7906E58 (.node 0x8E7906D58 (.leaf 0x1D522) (.leaf 0x1D523)) (.node 0x8E7906F58 (.leaf 0x1D524) (.leaf 0x1D525))))) (nameTree_43)
def nameTree_45 : NameTree := .node 0x92168C253 (.node 0x91F14A725 (.node 0x918BD8DDE (.node 0x918B88DDE (.leaf 0xA62B) (.leaf 0xA610)) (.node 0x918BF8DDE (.leaf 0xA611) (.leaf 0xA62A))) (.node 0x91FD41F4C (.node 0x91F502988 (.leaf 0x10CFA) (.leaf 0x72A)) (.node 0x92168BBA0 (.leaf 0xFCA8) (.leaf 0xFFB8)))) (.node 0x92168CD0B (.node 0x92168C9B9 (.node 0x92168C906 (.leaf 0xFFBE) (.leaf 0xFFB1)) (.node 0x92168CA5D (.leaf 0xFFA9) (.leaf 0xFFA4))) (.node 0x92598F297 (.node 0x9240BB025 (.leaf 0xFFB2) (.leaf 0x10CFC)) (.node 0x9281020AE (.leaf 0x1D18F) (.leaf 0xABEA))))
def nameTree_46 : NameTree := .node 0x918B69BDE (.node 0x901F45FCF (.node 0x8F5A220A5 (.node 0x8E7908158 (.leaf 0x1D536) (.node 0x8EC7E7B60 (.leaf 0x1D537) (.leaf 0xFCC5))) (.node 0x8F99FA8E9 (.node 0x8F743B711 (.leaf 0xA01) (.leaf 0xE2F)) (.node 0x9018405AF (.leaf 0x1D33A) (.leaf 0x2AA2)))) (.node 0x90E0DBAF2 (.node 0x907DBAED2 (.node 0x901F463CF (.leaf 0xA656) (.leaf 0x464)) (.node 0x90BE2396E (.leaf 0xA686) (.leaf 0xA9C0))) (.node 0x917AE7029 (.node 0x9117A9954 (.leaf 0x1D1E7) (.leaf 0x1DA58)) (.node 0x917F20A57 (.leaf 0x1D131) (.leaf 0x120F9))))) (nameTree_45)
def nameTree_47 : NameTree := .node 0x9630FFC09 (.node 0x9630FF509 (.node 0x961379B58 (.node 0x95B13A00B (.leaf 0x2445) (.leaf 0x1DA69)) (.node 0x9630FF209 (.leaf 0x1D8D2) (.leaf 0x212C))) (.node 0x9630FF809 (.node 0x9630FF609 (.leaf 0x2130) (.leaf 0x2131)) (.node 0x9630FF909 (.leaf 0x210B) (.leaf 0x2110)))) (.node 0x96595F75C (.node 0x963100009 (.node 0x9630FFD09 (.leaf 0x2112) (.leaf 0x2133)) (.node 0x963100209 (.leaf 0x2118) (.leaf 0x211B))) (.node 0x96595FF5C (.node 0x96595FB5C (.leaf 0x11280) (.leaf 0x11283)) (.node 0x965960B5C (.leaf 0x11281) (.leaf 0x11282))))
def nameTree_48 : NameTree := .node 0x953F9C128 (.node 0x93A91FE46 (.node 0x934FF4FBB (.node 0x92FD154D2 (.leaf 0x106E) (.node 0x93134821D (.leaf 0xFBDA) (.leaf 0x1F9E2))) (.node 0x93691E6A1 (.node 0x9357BEA7B (.leaf 0x106F) (.leaf 0x2C47)) (.node 0x938B91F73 (.leaf 0x1D1D3) (.leaf 0x1DA73)))) (.node 0x946B2F84F (.node 0x93E6883AF (.node 0x93B11D50F (.leaf 0x223E) (.leaf 0x33A3)) (.node 0x94378C50A (.leaf 0x1F683) (.leaf 0x2945))) (.node 0x94908D7AB (.node 0x94852A7D4 (.leaf 0x12235) (.leaf 0x1D6DB)) (.node 0x94CF801DF (.leaf 0xA6F) (.leaf 0x1D32B))))) (nameTree_47)
def nameTree_49 : NameTree := .node 0x98B7F2FD8 (.node 0x9842F889D (.node 0x9842E879D (.node 0x9842E7C9D (.leaf 0x2D55) (.leaf 0x2D5B)) (.node 0x9842F7C9D (.leaf 0x2D5A) (.leaf 0x2D5D))) (.node 0x984358E9D (.node 0x984357C9D (.leaf 0x2D5F) (.leaf 0x2D4A)) (.node 0x98AA4CF77 (.leaf 0x2D65) (.leaf 0xCEB)))) (.node 0x9A24F4E69 (.node 0x997136CE0 (.node 0x990A3DC77 (.leaf 0xFC4) (.leaf 0xCEA)) (.node 0x99FCE9441 (.leaf 0x1DA4E) (.leaf 0x114D0))) (.node 0x9AD8DBBC8 (.node 0x9AC467CF4 (.leaf 0x1E028) (.leaf 0x3259)) (.node 0x9B391C587 (.leaf 0x115D6) (.leaf 0x12121))))
def nameTree_50 : NameTree := .node 0x9842D869D (.node 0x983E8407F (.node 0x9753F4FAE (.node 0x97016CD35 (.leaf 0x1F4AB) (.node 0x974DA323E (.leaf 0x1BC97) (.leaf 0x327D))) (.node 0x97C449652 (.node 0x97719D80A (.leaf 0x124CD) (.leaf 0x1F325)) (.node 0x980F4B315 (.leaf 0x16BE) (.leaf 0x2A67)))) (.node 0x9841F7C9D (.node 0x9841E7C9D (.node 0x9841D7C9D (.leaf 0x3334) (.leaf 0x2D32)) (.node 0x9841F789D (.leaf 0x2D5E) (.leaf 0x2D39))) (.node 0x984237C9D (.node 0x984227C9D (.leaf 0x2D38) (.leaf 0x2D56)) (.node 0x984267C9D (.leaf 0x2D43) (.leaf 0x2D45))))) (nameTree_49)
def nameTree_51 : NameTree := .node 0x9E87D03E3 (.node 0x9E2261379 (.node 0x9DF195661 (.node 0x9DF075661 (.leaf 0x17E2) (.leaf 0x11C95)) (.node 0x9E1085661 (.leaf 0x11C99) (.leaf 0x11C9F))) (.node 0x9E5085661 (.node 0x9E4085661 (.leaf 0x223D) (.leaf 0x11CAC)) (.node 0x9E5135661 (.leaf 0x11C9B) (.leaf 0x11CA2)))) (.node 0x9F73AE9D4 (.node 0x9F2414ED0 (.node 0x9EB085661 (.leaf 0xFE59) (.leaf 0x11CA6)) (.node 0x9F42E0927 (.leaf 0x110BB) (.leaf 0x1D34D))) (.node 0xA0614081F (.node 0xA04B5ABF8 (.leaf 0xD6F) (.leaf 0xFBEF)) (.node 0xA07857542 (.leaf 0xA8C5) (.leaf 0x1F10C))))
def nameTree_52 : NameTree := .node 0x9DD16D600 (.node 0x9D41F6FDE (.node 0x9BFC034E3 (.node 0x9BF4F1E9B (.leaf 0x1E4B) (.node 0x9BF9672D3 (.leaf 0x6A8) (.leaf 0x2796))) (.node 0x9D2FADC1F (.node 0x9D2BEE5D1 (.leaf 0x1BA2) (.leaf 0x1D6D0)) (.node 0x9D4085661 (.leaf 0x450) (.leaf 0x11C97)))) (.node 0x9D80DCC00 (.node 0x9D62363CD (.node 0x9D51A5661 (.leaf 0xA78C) (.leaf 0x11CA4)) (.node 0x9D6FADA6C (.leaf 0x1D739) (.leaf 0x4D7))) (.node 0x9DC08DF00 (.node 0x9DC085661 (.leaf 0x17E1) (.leaf 0x11C93)) (.node 0x9DCD5DD3A (.leaf 0x17E6) (.leaf 0x2A55))))) (nameTree_51)
def nameTree_53 : NameTree := .node 0xA42C32EA8 (.node 0xA30E7B89B (.node 0xA294E732C (.node 0xA210329AE (.leaf 0xA688) (.leaf 0xABE3)) (.node 0xA30E40E87 (.leaf 0x3019) (.leaf 0xA72B))) (.node 0xA38C47DFA (.node 0xA334DEA4B (.leaf 0x1F496) (.leaf 0x1D33C)) (.node 0xA3D68C98B (.leaf 0xFE15) (.leaf 0x1B06)))) (.node 0xA67F99417 (.node 0xA485B1528 (.node 0xA442046FB (.leaf 0x1DFE) (.leaf 0x2FBF)) (.node 0xA51209DF2 (.leaf 0x22FC) (.leaf 0x2988))) (.node 0xA69F59417 (.node 0xA68F99417 (.leaf 0x1018) (.leaf 0x1006)) (.node 0xA69F99417 (.leaf 0x100D) (.leaf 0x1013))))
def nameTree_54 : NameTree := .node 0xA1EEDAED2 (.node 0xA1256571C (.node 0xA1256501C (.node 0xA12564B1C (.leaf 0x52C) (.node 0xA12564D1C (.leaf 0x11A8F) (.leaf 0x11A8D))) (.node 0xA1256551C (.node 0xA1256541C (.leaf 0x11A8A) (.leaf 0x11A8B)) (.node 0xA1256561C (.leaf 0x11A92) (.leaf 0x11A90)))) (.node 0xA1C3D6356 (.node 0xA12565C1C (.node 0xA12565B1C (.leaf 0x11A8E) (.leaf 0x11A91)) (.node 0xA132C0572 (.leaf 0x11A94) (.leaf 0x33AE))) (.node 0xA1EDBAED2 (.node 0xA1E462F88 (.leaf 0xA67C) (.leaf 0x72B)) (.node 0xA1EEAAED2 (.leaf 0x40F) (.leaf 0xA682))))) (nameTree_53)
def nameTree_55 : NameTree := .node 0xA862B67B5 (.node 0xA82293F9D (.node 0xA7A059417 (.node 0xA79F99417 (.leaf 0x1051) (.leaf 0x1011)) (.node 0xA7F2ED7A6 (.leaf 0x100B) (.leaf 0x1D990))) (.node 0xA836CA94C (.node 0xA823AC959 (.leaf 0x1D6F) (.leaf 0x1D354)) (.node 0xA856B687C (.leaf 0x10AC4) (.leaf 0x278C)))) (.node 0xA8C2A74B5 (.node 0xA8999BBFC (.node 0xA877BBF7D (.leaf 0x1087D) (.leaf 0x12355)) (.node 0xA8A256BE9 (.leaf 0x1EFB) (.leaf 0x124C9))) (.node 0xA9379C71A (.node 0xA8E994420 (.leaf 0x1087C) (.leaf 0xFD83)) (.node 0xA94258A6A (.leaf 0x11291) (.leaf 0x1D9AF))))
def nameTree_56 : NameTree := .node 0xA79049417 (.node 0xA70F99417 (.node 0xA6BAC6967 (.node 0xA6BAC6767 (.leaf 0x1F3FC) (.node 0xA6BAC6867 (.leaf 0x1F3FD) (.leaf 0x1F3FE))) (.node 0xA6CF99417 (.node 0xA6CD3B0C2 (.leaf 0x1F3FF) (.leaf 0x1CED)) (.node 0xA6FF99417 (.leaf 0x1003) (.leaf 0x1008)))) (.node 0xA740A9417 (.node 0xA73F89417 (.node 0xA71FD9417 (.leaf 0x1001) (.leaf 0x1020)) (.node 0xA73FF9417 (.leaf 0x1004) (.leaf 0x100F))) (.node 0xA78501119 (.node 0xA75F99417 (.leaf 0x1009) (.leaf 0x1016)) (.node 0xA78F99417 (.leaf 0x1F005) (.leaf 0x1050))))) (nameTree_55)
def nameTree_57 : NameTree := .node 0x537952201 (.node 0x251FB016B (.node 0x1707B0979 (.node 0x9BB29FDF (.node 0x45415220 (nameTree_0) (nameTree_2)) (.node 0x113F5666B (nameTree_4) (nameTree_6))) (.node 0x1DBDE3857 (.node 0x1A4629227 (nameTree_7) (nameTree_9)) (.node 0x21D3FFD58 (nameTree_11) (nameTree_13)))) (.node 0x3DF1BF046 (.node 0x2ED0E8EE5 (.node 0x2B2E6CBAF (nameTree_14) (nameTree_16)) (.node 0x3594AB9E7 (nameTree_18) (nameTree_20))) (.node 0x49D6F8751 (.node 0x4363950E8 (nameTree_21) (nameTree_23)) (.node 0x507510764 (nameTree_25) (nameTree_27))))) (.node 0x82BE1A70B (.node 0x68C6828DA (.node 0x5D511D50F (.node 0x5A1E18891 (nameTree_28) (nameTree_30)) (.node 0x629C17FD4 (nameTree_32) (nameTree_34))) (.node 0x76199B78E (.node 0x6D6C9A155 (nameTree_35) (nameTree_37)) (.node 0x7BE492B1B (nameTree_39) (nameTree_41)))) (.node 0x96F4867E2 (.node 0x8E7908058 (.node 0x8D9C32D55 (nameTree_42) (nameTree_44)) (.node 0x929F64FBB (nameTree_46) (nameTree_48))) (.node 0xA07DBAED2 (.node 0x9BD23F914 (nameTree_50) (nameTree_52)) (.node 0xA6BAC6667 (nameTree_54) (nameTree_56)))))
def nameTree_58 : NameTree := .node 0xABAEEC070 (.node 0xAB0F171FF (.node 0xAB0E971FF (.node 0xAA1E2D289 (.leaf 0x1ED3) (.node 0xAB0C6BFA9 (.leaf 0xFD7E) (.leaf 0x12030))) (.node 0xAB0EE6CFF (.node 0xAB0ED71FF (.leaf 0x10D0) (.leaf 0x10D4)) (.node 0xAB0F068FF (.leaf 0x10F6) (.leaf 0x10F1)))) (.node 0xAB10171FF (.node 0xAB0FD71FF (.node 0xAB0F771FF (.leaf 0x10D8) (.leaf 0x10DD)) (.node 0xAB0FF68FF (.leaf 0x10E3) (.leaf 0x10F3))) (.node 0xAB250900D (.node 0xAB174A69F (.leaf 0x10F7) (.leaf 0x1D9B3)) (.node 0xAB84F9D0D (.leaf 0x1C55) (.leaf 0x1C54))))) (.node 0xAD7EE2D65 (.node 0xAC6029526 (.node 0xAC567809C (.leaf 0x2C71) (.node 0xAC567829C (.leaf 0x1BBE) (.leaf 0x1BBF))) (.node 0xAD17AC80C (.node 0xAC7AAD1D7 (.leaf 0x1F804) (.leaf 0x1D31C)) (.node 0xAD6EE3AAD (.leaf 0xFD79) (.leaf 0xFB22)))) (.node 0xAE3E36CFC (.node 0xAE0675136 (.node 0xADCDE115D (.leaf 0xFB25) (.leaf 0x1039)) (.node 0xAE26E4076 (.leaf 0x1D368) (.leaf 0xFE65))) (.node 0xAF13426AC (.node 0xAEA25A9E3 (.leaf 0x1F393) (.leaf 0x16E6)) (.node 0xAF6531E90 (.leaf 0x1015D) (.leaf 0x1DA21)))))
def nameTree_59 : NameTree := .node 0xB2B6BDF9B (.node 0xB1BFE7F0A (.node 0xB1BF48B0A (.node 0xB1BF38B0A (.leaf 0x71B) (.leaf 0x1D6CD)) (.node 0xB1BF67F0A (.leaf 0x1D6CE) (.leaf 0x1D6D1))) (.node 0xB269340DE (.node 0xB24CA6B8E (.leaf 0x1D6CF) (.leaf 0x1CF6)) (.node 0xB29F0C98B (.leaf 0x1DA34) (.leaf 0x1B08)))) (.node 0xB49D702FC (.node 0xB3DDB18AF (.node 0xB3C82C5C0 (.leaf 0xA7A5) (.leaf 0x1F808)) (.node 0xB48DB08FC (.leaf 0x1F3AF) (.leaf 0x1EE6F))) (.node 0xB4BAE78A6 (.node 0xB4B101809 (.leaf 0x1EE61) (.leaf 0x1134D)) (.node 0xB4BD2FEFC (.leaf 0xA913) (.leaf 0x1EE79))))
def nameTree_60 : NameTree := .node 0xB1B512988 (.node 0xB0D6EAA78 (.node 0xB03D8CD15 (.node 0xB027AF7AA (.leaf 0x1D863) (.node 0xB02837E3C (.leaf 0x348) (.leaf 0x1725))) (.node 0xB07AF001F (.node 0xB06447C0D (.leaf 0x256A) (.leaf 0x124CE)) (.node 0xB09BDF36E (.leaf 0x16D8) (.leaf 0x2902)))) (.node 0xB0DDC487E (.node 0xB0DD54F7E (.node 0xB0DD5497E (.leaf 0x493) (.leaf 0x2D57)) (.node 0xB0DD9497E (.leaf 0x2D50) (.leaf 0x2D46))) (.node 0xB12103A6A (.node 0xB0DE8497E (.leaf 0x2D51) (.leaf 0x2D4C)) (.node 0xB1AA0EB54 (.leaf 0x2736) (.leaf 0x266E))))) (nameTree_59)
def nameTree_61 : NameTree := .node 0xB7809D6D3 (.node 0xB62963929 (.node 0xB614D3932 (.node 0xB60D702FC (.leaf 0x121E8) (.leaf 0x1EE69)) (.node 0xB61D302FC (.leaf 0xE10) (.leaf 0x1EE7A))) (.node 0xB721BFD65 (.node 0xB69EBBC54 (.leaf 0x23A5) (.leaf 0x1F009)) (.node 0xB72F46720 (.leaf 0x1D9) (.leaf 0xA720)))) (.node 0xB8CB8E650 (.node 0xB7B699AFE (.node 0xB7A6E7263 (.leaf 0x2A7D) (.leaf 0x2791)) (.node 0xB87E264A9 (.leaf 0x2A2) (.leaf 0x124CC))) (.node 0xB91704E5F (.node 0xB8F39FF46 (.leaf 0x25FE) (.leaf 0x2247)) (.node 0xB96BE41AE (.leaf 0x1F3D7) (.leaf 0x104))))
def nameTree_62 : NameTree := .node 0xB5D4CCAF9 (.node 0xB52D300FC (.node 0xB4FD702FC (.node 0xB4EA278A6 (.leaf 0x1EE70) (.node 0xB4FD302FC (.leaf 0xA90B) (.leaf 0x1EE67))) (.node 0xB51A178A6 (.node 0xB4FE8472A (.leaf 0x1EE64) (.leaf 0x2CE9)) (.node 0xB51B378A6 (.leaf 0xA90D) (.leaf 0xA911)))) (.node 0xB58D300FC (.node 0xB56A278A6 (.node 0xB53A278A6 (.leaf 0x1EE6A) (.leaf 0xA916)) (.node 0xB57A278A6 (.leaf 0xA90F) (.leaf 0xA91E))) (.node 0xB5BD302FC (.node 0xB5AD2FEFC (.leaf 0x1EE72) (.leaf 0x1EE71)) (.node 0xB5BD702FC (.leaf 0x1EE68) (.leaf 0x1EE75))))) (nameTree_61)
def nameTree_63 : NameTree := .node 0xC3155004B (.node 0xC11EDDD98 (.node 0xC06E4E129 (.node 0xC0001B19D (.leaf 0x2EE9) (.leaf 0xFD35)) (.node 0xC0DE7AAD2 (.leaf 0x2077) (.leaf 0x472))) (.node 0xC28DBCA81 (.node 0xC1AC50FD2 (.leaf 0x1F7B9) (.leaf 0x1E946)) (.node 0xC29A4C395 (.leaf 0x26FF) (.leaf 0x121D4)))) (.node 0xC46E06F98 (.node 0xC404761BD (.node 0xC3FC1F61B (.leaf 0xA699) (.leaf 0x2A11)) (.node 0xC46DF6F98 (.leaf 0x1D6FD) (.leaf 0xE9A))) (.node 0xC46E86F98 (.node 0xC46E16F98 (.leaf 0xE88) (.leaf 0xE94)) (.node 0xC46EA6F98 (.leaf 0xE81) (.leaf 0xEA1))))
def nameTree_64 : NameTree := .node 0xBFC74BD20 (.node 0xBCC887D32 (.node 0xBB69F4759 (.node 0xBA429D5AF (.leaf 0x1B57) (.node 0xBA996BC39 (.leaf 0x2633) (.leaf 0x1F615))) (.node 0xBBF0B16FE (.node 0xBB907073F (.leaf 0x288) (.leaf 0x26C3)) (.node 0xBC33170EA (.leaf 0x276B) (.leaf 0x1E15)))) (.node 0xBE31C3897 (.node 0xBD7900719 (.node 0xBD314301D (.leaf 0x1FD6) (.leaf 0x124C8)) (.node 0xBDB56C98B (.leaf 0x1F4A9) (.leaf 0x1B12))) (.node 0xBF3D6F71A (.node 0xBE485E4EC (.leaf 0x12265) (.leaf 0x1D898)) (.node 0xBF44951A4 (.leaf 0x1F46F) (.leaf 0x254E))))) (nameTree_63)
def nameTree_65 : NameTree := .node 0xC9E388BC7 (.node 0xC6025F03B (.node 0xC46F46F98 (.node 0xC46ED6F98 (.leaf 0xE99) (.node 0xC46F16F98 (.leaf 0xE9B) (.leaf 0xE95))) (.node 0xC490039CE (.node 0xC46F66F98 (.leaf 0xEA7) (.leaf 0xEA2)) (.node 0xC570ADF46 (.leaf 0xFCBB) (.leaf 0x21B1)))) (.node 0xC8CBCC98B (.node 0xC786BFF54 (.node 0xC783AFBD1 (.leaf 0x2672) (.leaf 0x10102)) (.node 0xC81E0EDC8 (.leaf 0x27FB) (.leaf 0x16B61))) (.node 0xC91A804BE (.node 0xC8CFF6C9E (.leaf 0x1B0A) (.leaf 0x1F626)) (.node 0xC9E251428 (.leaf 0x2224) (.leaf 0x2EAC))))) (.node 0xCB3159953 (.node 0xCADCDBCD7 (.node 0xCA32E1E28 (.leaf 0x2B85) (.node 0xCAB9BC31B (.leaf 0x2EAD) (.leaf 0x1D7A))) (.node 0xCB1E410D4 (.node 0xCADCDC2D7 (.leaf 0x18F3) (.leaf 0x18F4)) (.node 0xCB2491D03 (.leaf 0x1D1BE) (.leaf 0x299D)))) (.node 0xCC007B1C2 (.node 0xCB99E2A57 (.node 0xCB4C1DF7B (.leaf 0x2542) (.leaf 0x16B77)) (.node 0xCBDD3CB51 (.leaf 0x7F4) (.leaf 0x1F879))) (.node 0xCC510BBC2 (.node 0xCC402C4C2 (.leaf 0x1D7D9) (.leaf 0x1D7DE)) (.node 0xCCD1CBB42 (.leaf 0x1D7DA) (.leaf 0x1F846)))))
def nameTree_66 : NameTree := .node 0xCF1159AF6 (.node 0xCF114A0F6 (.node 0xCF11496F6 (.node 0xCF11492F6 (.leaf 0xFF78) (.leaf 0xFF8F)) (.node 0xCF1149AF6 (.leaf 0xFF92) (.leaf 0xFF90))) (.node 0xCF11592F6 (.node 0xCF114A6F6 (.leaf 0xFF93) (.leaf 0xFF91)) (.node 0xCF11596F6 (.leaf 0xFF85) (.leaf 0xFF88)))) (.node 0xCF11996F6 (.node 0xCF115A6F6 (.node 0xCF115A0F6 (.leaf 0xFF86) (.leaf 0xFF89)) (.node 0xCF11992F6 (.leaf 0xFF87) (.leaf 0xFF97))) (.node 0xCF119A0F6 (.node 0xCF1199AF6 (.leaf 0xFF9A) (.leaf 0xFF98)) (.node 0xCF119A6F6 (.leaf 0xFF9B) (.leaf 0xFF99))))
def nameTree_67 : NameTree := .node 0xCF112A6F6 (.node 0xCF10F96F6 (.node 0xCDAB46770 (.node 0xCD1C5D7A4 (.leaf 0x1D73D) (.node 0xCD6B1FB9F (.leaf 0x11114) (.leaf 0x429))) (.node 0xCEA6D1A4A (.node 0xCE5DC819C (.leaf 0xFE12) (.leaf 0x1D322)) (.node 0xCF10F92F6 (.leaf 0x29F1) (.leaf 0xFF8A)))) (.node 0xCF11292F6 (.node 0xCF10FA0F6 (.node 0xCF10F9AF6 (.leaf 0xFF8D) (.leaf 0xFF8B)) (.node 0xCF10FA6F6 (.leaf 0xFF8E) (.leaf 0xFF8C))) (.node 0xCF1129AF6 (.node 0xCF11296F6 (.leaf 0xFF76) (.leaf 0xFF79)) (.node 0xCF112A0F6 (.leaf 0xFF77) (.leaf 0xFF7A))))) (nameTree_66)
def nameTree_68 : NameTree := .node 0xD2A5C697E (.node 0xD10FA94F5 (.node 0xD0C6BFC74 (.node 0xD00BC62D7 (.leaf 0x1F3BC) (.leaf 0x12350)) (.node 0xD0DDAE1D2 (.leaf 0xE2D) (.leaf 0x335))) (.node 0xD1B6B59EA (.node 0xD1376601C (.leaf 0x1BCA0) (.leaf 0x491)) (.node 0xD29B1F30B (.leaf 0x10B42) (.leaf 0x2401)))) (.node 0xD3FBC40FF (.node 0xD3459871F (.node 0xD2BD65B5F (.leaf 0xABDA) (.leaf 0x1E923)) (.node 0xD3C4130F5 (.leaf 0x1F73D) (.leaf 0x1DA72))) (.node 0xD493D351D (.node 0xD45224F74 (.leaf 0x354) (.leaf 0x1F69E)) (.node 0xD53AF4EFB (.leaf 0x120D9) (.leaf 0xFF1C))))
def nameTree_69 : NameTree := .node 0xCF7F4BD8E (.node 0xCF11B9AF6 (.node 0xCF11AA0F6 (.node 0xCF11A96F6 (.leaf 0xFF7B) (.node 0xCF11A9AF6 (.leaf 0xFF7E) (.leaf 0xFF7C))) (.node 0xCF11B92F6 (.node 0xCF11AA6F6 (.leaf 0xFF7F) (.leaf 0xFF7D)) (.node 0xCF11B96F6 (.leaf 0xFF80) (.leaf 0xFF83)))) (.node 0xCF11EA0F6 (.node 0xCF11BA6F6 (.node 0xCF11BA0F6 (.leaf 0xFF81) (.leaf 0xFF84)) (.node 0xCF11E92F6 (.leaf 0xFF82) (.leaf 0xFF9C))) (.node 0xCF120A0F6 (.node 0xCF12092F6 (.leaf 0xFF66) (.leaf 0xFF94)) (.node 0xCF120A6F6 (.leaf 0xFF96) (.leaf 0xFF95))))) (nameTree_68)
def nameTree_70 : NameTree := .node 0xDB6D576B7 (.node 0xD7C3E307E (.node 0xD797162E8 (.node 0xD791E1D59 (.leaf 0x8DD) (.leaf 0x2718)) (.node 0xD7B7A9DEB (.leaf 0x1149C) (.leaf 0x10AC5))) (.node 0xD9AD96495 (.node 0xD7FD3864F (.leaf 0x8DF) (.leaf 0x1D0BC)) (.node 0xDB15B9991 (.leaf 0x1F504) (.leaf 0x16871)))) (.node 0xDC2AD5CC2 (.node 0xDC0B15CC2 (.node 0xDB9A3FE7E (.leaf 0x1D15E) (.leaf 0x1D329)) (.node 0xDC1B15CC2 (.leaf 0x11A73) (.leaf 0x11A62))) (.node 0xDC2C35CC2 (.node 0xDC2B15CC2 (.leaf 0x11A68) (.leaf 0x11A6E)) (.node 0xDC5B15CC2 (.leaf 0x11A77) (.leaf 0x11A5F))))
def nameTree_71 : NameTree := .node 0xD764C2F22 (.node 0xD604AA32E (.node 0xD5CD32CBC (.node 0xD5A62599B (.leaf 0x10843) (.node 0xD5A73F4E8 (.leaf 0x1680D) (.leaf 0x16848))) (.node 0xD5E5CF591 (.node 0xD5DEC3A6D (.leaf 0x1F964) (.leaf 0x1F39B)) (.node 0xD5F5430AE (.leaf 0x16842) (.leaf 0x168E0)))) (.node 0xD6BDA1F24 (.node 0xD68237B4C (.node 0xD654DBAE2 (.leaf 0x1D8F8) (.leaf 0x168AC)) (.node 0xD6969B37E (.leaf 0x1D045) (.leaf 0x1AA5))) (.node 0xD7520F3B7 (.node 0xD74F2C74D (.leaf 0x22EF) (.leaf 0x1F76)) (.node 0xD75F2C12F (.leaf 0x1D7) (.leaf 0x1F31))))) (nameTree_70)
def nameTree_72 : NameTree := .node 0xDD892C42A (.node 0xDD11C68E6 (.node 0xDCCB75CC2 (.node 0xDC9B15CC2 (.leaf 0x11A64) (.node 0xDCCB05CC2 (.leaf 0x11A5D) (.leaf 0x11A60))) (.node 0xDCEB15CC2 (.node 0xDCCC25CC2 (.leaf 0x11A6A) (.leaf 0x11A65)) (.node 0xDCFF01416 (.leaf 0x11A71) (.leaf 0xFB57)))) (.node 0xDD2B15CC2 (.node 0xDD1B15CC2 (.node 0xDD165BCA6 (.leaf 0x1D748) (.leaf 0x1249E)) (.node 0xDD1BC5CC2 (.leaf 0x11A7F) (.leaf 0x11A80))) (.node 0xDD2BD5CC2 (.node 0xDD2BC5CC2 (.leaf 0x11A6C) (.leaf 0x11A75)) (.node 0xDD497B12A (.leaf 0x11A66) (.leaf 0x1D7E3))))) (.node 0xDE8A4E9F8 (.node 0xDDBB98C8E (.node 0xDD8B15CC2 (.leaf 0x1D7E8) (.node 0xDD9A0BB2A (.leaf 0x11A78) (.leaf 0x1D7E4))) (.node 0xDE1FE2B4F (.node 0xDDDA19D66 (.leaf 0x111C5) (.leaf 0xB01)) (.node 0xDE69D8075 (.leaf 0x118EE) (.leaf 0x1F6F8)))) (.node 0xDEE6C28F4 (.node 0xDE8A5D680 (.node 0xDE8A50789 (.leaf 0x33A0) (.leaf 0x3378)) (.node 0xDE8A611A2 (.leaf 0x33A2) (.leaf 0x339F))) (.node 0xDF0D1E114 (.node 0xDEE8EDEEC (.leaf 0x124AC) (.leaf 0x1D88E)) (.node 0xDF3FE2FBA (.leaf 0x4DCA) (.leaf 0x118EF)))))
def nameTree_73 : NameTree := .node 0xE1F34A163 (.node 0xE1F33AB63 (.node 0xE1F33A163 (.node 0xE1F339D63 (.leaf 0xA009) (.leaf 0xA020)) (.node 0xE1F33A563 (.leaf 0xA02A) (.leaf 0xA018))) (.node 0xE1F33B563 (.node 0xE1F33B163 (.leaf 0xA027) (.leaf 0xA02E)) (.node 0xE1F349D63 (.leaf 0xA034) (.leaf 0xA2B8)))) (.node 0xE1F34B563 (.node 0xE1F34AB63 (.node 0xE1F34A563 (.leaf 0xA2C2) (.leaf 0xA2B0)) (.node 0xE1F34B163 (.leaf 0xA2BF) (.leaf 0xA2C6))) (.node 0xE1F35A163 (.node 0xE1F359D63 (.leaf 0xA2CC) (.leaf 0xA109)) (.node 0xE1F35A563 (.leaf 0xA112) (.leaf 0xA102))))
def nameTree_74 : NameTree := .node 0xE1F32B463 (.node 0xE0C59E8F2 (.node 0xE07CDAB91 (.node 0xE01C7AB91 (.leaf 0x1133D) (.node 0xE04CACF64 (.leaf 0x93B) (.leaf 0x2E05))) (.node 0xE08CB4A67 (.node 0xE0873F4E8 (.leaf 0x957) (.leaf 0x168DF)) (.node 0xE08E0B81F (.leaf 0x1F7B1) (.leaf 0x1D1AE)))) (.node 0xE1D4050E1 (.node 0xE0FCCFB2B (.node 0xE0C5B53AA (.leaf 0x16896) (.leaf 0x168A8)) (.node 0xE16CDECA4 (.leaf 0x10153) (.leaf 0xFB1E))) (.node 0xE1F32AC63 (.node 0xE1E3C4AE1 (.leaf 0x1EE8F) (.leaf 0x1EE81)) (.node 0xE1F32B063 (.leaf 0xA00B) (.leaf 0xA008))))) (nameTree_73)
def nameTree_75 : NameTree := .node 0xE1F3BB563 (.node 0xE1F3AB463 (.node 0xE1F3AAC63 (.node 0xE1F3AA163 (.leaf 0xA27B) (.leaf 0xA006)) (.node 0xE1F3AB063 (.leaf 0xA003) (.leaf 0xA000))) (.node 0xE1F3BAB63 (.node 0xE1F3BA563 (.leaf 0xA001) (.leaf 0xA3E2)) (.node 0xE1F3BB163 (.leaf 0xA3EE) (.leaf 0xA3F2)))) (.node 0xE1F3CAB63 (.node 0xE1F3CA163 (.node 0xE1F3C9D63 (.leaf 0xA3F8) (.leaf 0xA201)) (.node 0xE1F3CA563 (.leaf 0xA20C) (.leaf 0xA1FA))) (.node 0xE1F3D9D63 (.node 0xE1F3CB163 (.leaf 0xA208) (.leaf 0xA210)) (.node 0xE1F3DA163 (.leaf 0xA1C1) (.leaf 0xA1CC))))
def nameTree_76 : NameTree := .node 0xE1F39AB63 (.node 0xE1F37B563 (.node 0xE1F379D63 (.node 0xE1F35B163 (.leaf 0xA10F) (.node 0xE1F36B463 (.leaf 0xA116) (.leaf 0xA013))) (.node 0xE1F37AB63 (.node 0xE1F37A563 (.leaf 0xA0D3) (.leaf 0xA0CF)) (.node 0xE1F37B163 (.leaf 0xA0D6) (.leaf 0xA0DA)))) (.node 0xE1F38AB63 (.node 0xE1F38A163 (.node 0xE1F389D63 (.leaf 0xA0E0) (.leaf 0xA1E4)) (.node 0xE1F38A563 (.leaf 0xA1F0) (.leaf 0xA1DC))) (.node 0xE1F399D63 (.node 0xE1F38B163 (.leaf 0xA1EC) (.leaf 0xA1F4)) (.node 0xE1F39A163 (.leaf 0xA273) (.leaf 0xA27E))))) (nameTree_75)
def nameTree_77 : NameTree := .node 0xE1F42A563 (.node 0xE1F41A563 (.node 0xE1F40B463 (.node 0xE1F40B063 (.leaf 0xA012) (.leaf 0xA00F)) (.node 0xE1F419D63 (.leaf 0xA010) (.leaf 0xA041))) (.node 0xE1F41B163 (.node 0xE1F41AB63 (.leaf 0xA03A) (.leaf 0xA048)) (.node 0xE1F41B563 (.leaf 0xA04C) (.leaf 0xA052)))) (.node 0xE1F439D63 (.node 0xE1F42B163 (.node 0xE1F42AB63 (.leaf 0xA3FE) (.leaf 0xA40A)) (.node 0xE1F42B563 (.leaf 0xA40E) (.leaf 0xA414))) (.node 0xE1F43AB63 (.node 0xE1F43A163 (.leaf 0xA3C8) (.leaf 0xA3D2)) (.node 0xE1F43B163 (.leaf 0xA3CF) (.leaf 0xA3D6))))
def nameTree_78 : NameTree := .node 0xE1F40AC63 (.node 0xE1F3EAB63 (.node 0xE1F3DB563 (.node 0xE1F3DAB63 (.leaf 0xA1B9) (.node 0xE1F3DB163 (.leaf 0xA1C9) (.leaf 0xA1D0))) (.node 0xE1F3EA163 (.node 0xE1F3E9D63 (.leaf 0xA1D6) (.leaf 0xA0B7)) (.node 0xE1F3EA563 (.leaf 0xA0C2) (.leaf 0xA0B0)))) (.node 0xE1F3FA163 (.node 0xE1F3EB563 (.node 0xE1F3EB163 (.leaf 0xA0BF) (.leaf 0xA0C5)) (.node 0xE1F3F9D63 (.leaf 0xA0CB) (.leaf 0xA185))) (.node 0xE1F3FAB63 (.node 0xE1F3FA563 (.leaf 0xA18F) (.leaf 0xA17F)) (.node 0xE1F3FB163 (.leaf 0xA18C) (.leaf 0xA193))))) (nameTree_77)
def nameTree_79 : NameTree := .node 0xE1F47AB63 (.node 0xE1F459D63 (.node 0xE1F44A563 (.node 0xE1F449D63 (.leaf 0xA3DC) (.node 0xE1F44A163 (.leaf 0xA312) (.leaf 0xA31C))) (.node 0xE1F44B163 (.node 0xE1F44AB63 (.leaf 0xA30B) (.leaf 0xA319)) (.node 0xE1F44B563 (.leaf 0xA320) (.leaf 0xA326)))) (.node 0xE1F45B163 (.node 0xE1F45A563 (.node 0xE1F45A163 (.leaf 0xA123) (.leaf 0xA12E)) (.node 0xE1F45AB63 (.leaf 0xA11C) (.leaf 0xA12B))) (.node 0xE1F479D63 (.node 0xE1F46AB63 (.leaf 0xA132) (.leaf 0xA00D)) (.node 0xE1F47A563 (.leaf 0xA0EC) (.leaf 0xA0E4))))) (.node 0xE1F49A563 (.node 0xE1F489D63 (.node 0xE1F47B163 (.leaf 0xA0F0) (.node 0xE1F47B563 (.leaf 0xA0F6) (.leaf 0xA0FC))) (.node 0xE1F48AB63 (.node 0xE1F48A163 (.leaf 0xA282) (.leaf 0xA28B)) (.node 0xE1F48B163 (.leaf 0xA288) (.leaf 0xA015)))) (.node 0xE1F4AAB63 (.node 0xE1F49B563 (.node 0xE1F49AB63 (.leaf 0xA45F) (.leaf 0xA469)) (.node 0xE1F4AA563 (.leaf 0xA46D) (.leaf 0xA473))) (.node 0xE1F4AB563 (.node 0xE1F4AB163 (.leaf 0xA47F) (.leaf 0xA483)) (.node 0xE1F4B9D63 (.leaf 0xA489) (.leaf 0xA296)))))
def nameTree_80 : NameTree := .node 0xE353C4AE1 (.node 0xE30384AE1 (.node 0xE2E3C4AE1 (.node 0xE2D3848E1 (.leaf 0xABC6) (.leaf 0x1EE92)) (.node 0xE2F3846E1 (.leaf 0x1EE93) (.leaf 0x1EE91))) (.node 0xE333859E1 (.node 0xE303C4AE1 (.leaf 0x1EE88) (.leaf 0x1EE95)) (.node 0xE342F4ECA (.leaf 0x1EE85) (.leaf 0x101FA)))) (.node 0xE4C2386CF (.node 0xE3FB2FDA4 (.node 0xE36384AE1 (.leaf 0x1EE89) (.leaf 0x1EE9A)) (.node 0xE42585515 (.leaf 0x1173A) (.leaf 0xA60C))) (.node 0xE50C213AE (.node 0xE4D6DEE9B (.leaf 0xA711) (.leaf 0x16824)) (.node 0xE56C2F1C1 (.leaf 0x12272) (.leaf 0x1F72B))))
def nameTree_81 : NameTree := .node 0xE2A64687E (.node 0xE21BDF1C0 (.node 0xE1F4BB163 (.node 0xE1F4BA563 (.leaf 0xA2A0) (.node 0xE1F4BAB63 (.leaf 0xA28F) (.leaf 0xA29D))) (.node 0xE203846E1 (.node 0xE1F4BB563 (.leaf 0xA2A4) (.leaf 0xA2AA)) (.node 0xE20384EE1 (.leaf 0x1EE99) (.leaf 0x1EE83)))) (.node 0xE26F190D5 (.node 0xE24384AE1 (.node 0xE223C4AE1 (.leaf 0x7C5) (.leaf 0x1EE90)) (.node 0xE243C4AE1 (.leaf 0x1EE87) (.leaf 0x1EE84))) (.node 0xE27BCFEC0 (.node 0xE270A251A (.leaf 0x2566) (.leaf 0x16AE6)) (.node 0xE28384FE1 (.leaf 0x7C4) (.leaf 0x1EE8B))))) (nameTree_80)
def nameTree_82 : NameTree := .node 0xE978F5693 (.node 0xE8E8D9038 (.node 0xE88DD4143 (.node 0xE8602027C (.leaf 0x121BB) (.leaf 0x121BC)) (.node 0xE8A58D437 (.leaf 0x109EE) (.leaf 0x2047))) (.node 0xE93969A38 (.node 0xE9288A338 (.leaf 0x1811) (.leaf 0x1816)) (.node 0xE95D2CC5F (.leaf 0x1812) (.leaf 0x1B53)))) (.node 0xEB390085B (.node 0xEAE86FE5B (.node 0xE97C59C19 (.leaf 0x10380) (.leaf 0x23A)) (.node 0xEB282115B (.leaf 0xFF11) (.leaf 0xFF16))) (.node 0xEBEB44BE0 (.node 0xEBD1C3A80 (.leaf 0xFF12) (.leaf 0x16B45)) (.node 0xEBEC34FE0 (.leaf 0x4BB) (.leaf 0xA697))))
def nameTree_83 : NameTree := .node 0xE8102087C (.node 0xE68761BCA (.node 0xE626330AE (.node 0xE5767721F (.leaf 0x1084B) (.node 0xE60DFA312 (.leaf 0x1084E) (.leaf 0x1DF7))) (.node 0xE64DCFD4B (.node 0xE648A563B (.leaf 0x168BA) (.leaf 0x1D32E)) (.node 0xE686DD9F2 (.leaf 0x1F3E4) (.leaf 0x3297)))) (.node 0xE78E26F2A (.node 0xE6C743498 (.node 0xE68F6C7A1 (.leaf 0x2BED) (.leaf 0xABE0)) (.node 0xE6F673396 (.leaf 0x624) (.leaf 0x109D2))) (.node 0xE7B6D55EB (.node 0xE7A56F1DF (.leaf 0x1EA4) (.leaf 0x10AF3)) (.node 0xE7B76B6EB (.leaf 0x10AD3) (.leaf 0x10AD8))))) (nameTree_82)
def nameTree_84 : NameTree := .node 0xF0672A44C (.node 0xF0670A44C (.node 0xF00481E78 (.node 0xEFD0F1C6E (.leaf 0x1F42A) (.leaf 0x2408)) (.node 0xF02E4D880 (.leaf 0x4EB) (.leaf 0xB3))) (.node 0xF0671A84C (.node 0xF0671A44C (.leaf 0x10097) (.leaf 0x1009C)) (.node 0xF0672A24C (.leaf 0x1009E) (.leaf 0x1009F)))) (.node 0xF0672AA4C (.node 0xF0672A64C (.node 0xF0672A54C (.leaf 0x100A1) (.leaf 0x100A2)) (.node 0xF0672A94C (.leaf 0x100A3) (.leaf 0x100A5))) (.node 0xF0673A34C (.node 0xF0673A24C (.leaf 0x100A6) (.leaf 0x100A8)) (.node 0xF0673A64C (.leaf 0x100A9) (.leaf 0x100AC))))
def nameTree_85 : NameTree := .node 0xEF7DAB7ED (.node 0xECF792B63 (.node 0xEC1A8D29D (.node 0xEC1A8C89D (.leaf 0xA4EE) (.node 0xEC1A8CC9D (.leaf 0xA4F0) (.leaf 0xA4F2))) (.node 0xEC726465C (.node 0xEC1A8D89D (.leaf 0xA4F3) (.leaf 0xA4F4)) (.node 0xEC9B29EDD (.leaf 0x1D8EB) (.leaf 0x291F)))) (.node 0xEDD81418C (.node 0xEDB313442 (.node 0xED8BC0B86 (.leaf 0x122D8) (.leaf 0xA648)) (.node 0xEDD2E0D04 (.leaf 0x11175) (.leaf 0x29A3))) (.node 0xEEB0F8804 (.node 0xEE122E9F8 (.leaf 0x1D879) (.leaf 0x2950)) (.node 0xEF5B3935B (.leaf 0x1D8D4) (.leaf 0x1D7B))))) (nameTree_84)
def nameTree_86 : NameTree := .node 0xF0675A54C (.node 0xF0674A44C (.node 0xF0673AA4C (.node 0xF0673A84C (.leaf 0x100AD) (.node 0xF0673A94C (.leaf 0x100AE) (.leaf 0x100AF))) (.node 0xF0674A24C (.node 0xF0673AB4C (.leaf 0x100B0) (.leaf 0x100B1)) (.node 0xF0674A34C (.leaf 0x100B2) (.leaf 0x100B3)))) (.node 0xF0674AB4C (.node 0xF0674A94C (.node 0xF0674A64C (.leaf 0x100B4) (.leaf 0x100B6)) (.node 0xF0674AA4C (.leaf 0x100B8) (.leaf 0x100B9))) (.node 0xF0675A34C (.node 0xF0675A24C (.leaf 0x100BA) (.leaf 0x100BB)) (.node 0xF0675A44C (.leaf 0x100BC) (.leaf 0x100BD))))) (.node 0xF0770A64C (.node 0xF0675AB4C (.node 0xF0675A64C (.leaf 0x100BE) (.node 0xF0675A74C (.leaf 0x100BF) (.leaf 0x100C0))) (.node 0xF06B1D3ED (.node 0xF0676A24C (.leaf 0x100C1) (.leaf 0x100C2)) (.node 0xF0770A44C (.leaf 0xFCC1) (.leaf 0x100C8)))) (.node 0xF0771AA4C (.node 0xF0771A74C (.node 0xF0770A84C (.leaf 0x100CA) (.leaf 0x100CB)) (.node 0xF0771A84C (.leaf 0x100D0) (.leaf 0x100D1))) (.node 0xF0772A34C (.node 0xF0771AB4C (.leaf 0x100D3) (.leaf 0x100D4)) (.node 0xF0772A44C (.leaf 0x100D5) (.leaf 0x100D6)))))
def nameTree_87 : NameTree := .node 0xF2F781E50 (.node 0xF2F780A50 (.node 0xF2A117524 (.node 0xF26635D7E (.leaf 0x2EF0) (.leaf 0xAAE7)) (.node 0xF2A6A717E (.leaf 0x11664) (.leaf 0xABD9))) (.node 0xF2F781250 (.node 0xF2F780E50 (.leaf 0x11481) (.leaf 0x1148B)) (.node 0xF2F781850 (.leaf 0x11483) (.leaf 0x1148D)))) (.node 0xF4AFD7B71 (.node 0xF369EE531 (.node 0xF3291E33B (.leaf 0x11485) (.leaf 0x1D1B7)) (.node 0xF4781E974 (.leaf 0x1D191) (.leaf 0xFD86))) (.node 0xF53C6C57E (.node 0xF519B9CED (.leaf 0xFCC) (.leaf 0x1F89E)) (.node 0xF566FFB9B (.leaf 0x1104A) (.leaf 0x1691A))))
def nameTree_88 : NameTree := .node 0xF23033393 (.node 0xF0BF7E3A3 (.node 0xF0772A94C (.node 0xF0772A74C (.leaf 0x100D7) (.node 0xF0772A84C (.leaf 0x100D9) (.leaf 0x100DA))) (.node 0xF0772AB4C (.node 0xF0772AA4C (.leaf 0x100DB) (.leaf 0x100DC)) (.node 0xF0A952F1E (.leaf 0x100DD) (.leaf 0x1F541)))) (.node 0xF14FDF2F4 (.node 0xF13E7AAD2 (.node 0xF0FF1A1BB (.leaf 0xFC3C) (.leaf 0x319)) (.node 0xF141421A1 (.leaf 0xA646) (.leaf 0x2503))) (.node 0xF1E640B37 (.node 0xF178DEF34 (.leaf 0x9F6) (.leaf 0x1D198)) (.node 0xF20CB6859 (.leaf 0x2788) (.leaf 0x1D99))))) (nameTree_87)
def nameTree_89 : NameTree := .node 0xF9564F587 (.node 0xF8D50BFEC (.node 0xF8BEFC38B (.node 0xF8AD5D646 (.leaf 0x2026) (.leaf 0x1B58)) (.node 0xF8C65BF4D (.leaf 0xFEA2) (.leaf 0x10A46))) (.node 0xF8F9DB9EC (.node 0xF8DE50746 (.leaf 0x108D) (.leaf 0x12093)) (.node 0xF90935693 (.leaf 0xFC8) (.leaf 0x10381)))) (.node 0xFACF717AB (.node 0xFA85C6F9A (.node 0xFA0B8466E (.leaf 0x753) (.leaf 0x1D856)) (.node 0xFA9CAC5AF (.leaf 0x10CFD) (.leaf 0x2484))) (.node 0xFB28C1E56 (.node 0xFB28C1D56 (.leaf 0x1BB7) (.leaf 0x1D167)) (.node 0xFB28C1F56 (.leaf 0x1D168) (.leaf 0x1D169))))
def nameTree_90 : NameTree := .node 0xF831673E4 (.node 0xF76829C0D (.node 0xF5E548457 (.node 0xF5A5FF29B (.leaf 0x1448) (.node 0xF5C4DE33E (.leaf 0x1691C) (.leaf 0x168A5))) (.node 0xF64BFB7AC (.node 0xF6049D5EC (.leaf 0x168C6) (.leaf 0x168D2)) (.node 0xF6FF9AF85 (.leaf 0x1D914) (.leaf 0x1C78)))) (.node 0xF7C5CE63D (.node 0xF7A5788E3 (.node 0xF7A43AA2D (.leaf 0x345) (.leaf 0x1D8B0)) (.node 0xF7B29EE4C (.leaf 0x1425) (.leaf 0x2774))) (.node 0xF7E4DA3C6 (.node 0xF7D5D477E (.leaf 0xAB3F) (.leaf 0x1F501)) (.node 0xF7F94CB20 (.leaf 0x17CB) (.leaf 0xA748))))) (nameTree_89)
def nameTree_91 : NameTree := .node 0xFEC8E95BD (.node 0xFE1462455 (.node 0xFD77F5518 (.node 0xFD62657D1 (.leaf 0x1119C) (.leaf 0x11FC)) (.node 0xFD8E657D1 (.leaf 0x285) (.leaf 0x11FD))) (.node 0xFE32F09B2 (.node 0xFE2FC76AA (.leaf 0x25B1) (.leaf 0xFCC2)) (.node 0xFE48A41FE (.leaf 0x2E41) (.leaf 0x2C66)))) (.node 0x100834C6AF (.node 0xFF7E7E267 (.node 0xFF32E858F (.leaf 0x1F5F1) (.leaf 0x2ACB)) (.node 0xFFEF4E41F (.leaf 0x2078) (.leaf 0x207B))) (.node 0x10137653E0 (.node 0x100C87925D (.leaf 0x1F963) (.leaf 0x1D888)) (.node 0x101943B6F3 (.leaf 0x10B40) (.leaf 0x319A))))
def nameTree_92 : NameTree := .node 0xFD56824CC (.node 0xFC9B44FE0 (.node 0xFB9B44FE0 (.node 0xFB4BEECA7 (.leaf 0x1D34C) (.node 0xFB98248A7 (.leaf 0x19F8) (.leaf 0x19F7))) (.node 0xFC80076E8 (.node 0xFB9EC072E (.leaf 0xA693) (.leaf 0x22C)) (.node 0xFC959EE37 (.leaf 0xE0040) (.leaf 0x1D6C6)))) (.node 0xFCEC9EE37 (.node 0xFC9C34FE0 (.node 0xFC9BF4FE0 (.leaf 0x45B) (.leaf 0xA691)) (.node 0xFCAC425FC (.leaf 0xA68F) (.leaf 0x11C50))) (.node 0xFD1DF0404 (.node 0xFCFC77FE1 (.leaf 0x1D6D6) (.leaf 0x1CD4)) (.node 0xFD2EBBFB0 (.leaf 0x3099) (.leaf 0xA978))))) (nameTree_91)
def nameTree_93 : NameTree := .node 0x10395D4E32 (.node 0x1031573861 (.node 0x1023B89E8B (.node 0x101D71C5F8 (.leaf 0x2A5D) (.node 0x10210329AE (.leaf 0x2731) (.leaf 0xABE8))) (.node 0x102B412988 (.node 0x10298CB530 (.leaf 0x1D1DC) (.leaf 0x2CF0)) (.node 0x1031573461 (.leaf 0x71D) (.leaf 0x159E)))) (.node 0x1034C78B4E (.node 0x1031574261 (.node 0x1031573C61 (.leaf 0x159B) (.leaf 0x159C)) (.node 0x1034310A9D (.leaf 0x159D) (.leaf 0x1F6A8))) (.node 0x10395D4232 (.node 0x10395D3E32 (.leaf 0x2B7C) (.leaf 0x10354)) (.node 0x10395D4832 (.leaf 0x10359) (.leaf 0x10369))))) (.node 0x10554C225A (.node 0x104A898865 (.node 0x103FF5249B (.leaf 0x10363) (.node 0x1044495E10 (.leaf 0x1F022) (.leaf 0x1DA74))) (.node 0x104F5F2001 (.node 0x104CB1F2CC (.leaf 0x2F15) (.leaf 0xA3C)) (.node 0x1054902503 (.leaf 0x1F67A) (.leaf 0xE0031)))) (.node 0x10615B0B7E (.node 0x105909E46B (.node 0x10588B3803 (.leaf 0x1CF4) (.leaf 0xE0036)) (.node 0x1059992F03 (.leaf 0x11A37) (.leaf 0xE0032))) (.node 0x106A19391D (.node 0x10615B0C7E (.leaf 0x1A75) (.leaf 0x1A76)) (.node 0x106DAC9D87 (.leaf 0x1B1E) (.leaf 0x201)))))
def nameTree_94 : NameTree := .node 0x110350D440 (.node 0x10DCA36E21 (.node 0x10D97D6BF7 (.node 0x10D97D6AF7 (.leaf 0x1DA5E) (.leaf 0x108B)) (.node 0x10DA1762C8 (.leaf 0x108C) (.leaf 0x1D736))) (.node 0x10DDB0F6F3 (.node 0x10DCA37921 (.leaf 0x261) (.leaf 0xAB4B)) (.node 0x10F0D39CD5 (.leaf 0xFC9) (.leaf 0x1D05F)))) (.node 0x1115A882AA (.node 0x11074F45BE (.node 0x11066E3671 (.leaf 0x12004) (.leaf 0x1D05E)) (.node 0x110C97E05E (.leaf 0x1D161) (.leaf 0x1F853))) (.node 0x1120F5F8AA (.node 0x1117462F88 (.leaf 0x2BC0) (.leaf 0x719)) (.node 0x1127D419A7 (.leaf 0xABDD) (.leaf 0x1E98))))
def nameTree_95 : NameTree := .node 0x10D684E891 (.node 0x10B0CA667E (.node 0x10827A75DE (.node 0x107706F501 (.leaf 0x4DE4) (.node 0x10801E4D5F (.leaf 0x100CE) (.leaf 0x10E6F))) (.node 0x1095D2DC5C (.node 0x108368AA8E (.leaf 0x7E0) (.leaf 0x2729)) (.node 0x10AF1112C4 (.leaf 0x10CFF) (.leaf 0x1EDE)))) (.node 0x10C33CB056 (.node 0x10BA1310E5 (.node 0x10B90CA72C (.leaf 0x2094) (.leaf 0xFD4)) (.node 0x10C33C37B7 (.leaf 0xFDBF) (.leaf 0x1F524))) (.node 0x10CDF71E9B (.node 0x10C33CBA56 (.leaf 0x945) (.leaf 0x949)) (.node 0x10D0E16A0E (.leaf 0x10161) (.leaf 0x1F6A6))))) (nameTree_94)
def nameTree_96 : NameTree := .node 0x11B1611A31 (.node 0x11983584C8 (.node 0x118C235C79 (.node 0x118A9CCF77 (.leaf 0x1D9D5) (.leaf 0xCEF)) (.node 0x1193806193 (.leaf 0x338) (.leaf 0x1038F))) (.node 0x11ACD485B7 (.node 0x119EA47492 (.leaf 0x2900) (.leaf 0x1D243)) (.node 0x11AE5BCC4C (.leaf 0x1D13C) (.leaf 0x1F1A)))) (.node 0x11CEB16019 (.node 0x11B663FAED (.node 0x11B61F5B44 (.leaf 0xD3D) (.leaf 0xF0F)) (.node 0x11B86CF4E8 (.leaf 0x16861) (.leaf 0x1687E))) (.node 0x11D0D6C4B0 (.node 0x11CF16678A (.leaf 0x228E) (.leaf 0x1D74E)) (.node 0x11D8B0FA43 (.leaf 0x2008) (.leaf 0x460))))
def nameTree_97 : NameTree := .node 0x11839B6F6F (.node 0x1159BBFCAF (.node 0x11352D8D8E (.node 0x113173E3CD (.leaf 0x2EF2) (.node 0x113463B335 (.leaf 0x2C37) (.leaf 0x2421))) (.node 0x1145C25452 (.node 0x1144B27B49 (.leaf 0x21B6) (.leaf 0xE3F)) (.node 0x1155B773C2 (.leaf 0x2028) (.leaf 0xA712)))) (.node 0x116E6B8929 (.node 0x11605991DF (.node 0x115A73F491 (.leaf 0x1D82E) (.leaf 0x16832)) (.node 0x1162F8782D (.leaf 0x2252) (.leaf 0x21D0))) (.node 0x1174D22B31 (.node 0x11703257B4 (.leaf 0x21A6) (.leaf 0x1B6F)) (.node 0x117ED975F3 (.leaf 0x11661) (.leaf 0x22D0))))) (nameTree_96)
def nameTree_98 : NameTree := .node 0x1220933F65 (.node 0x1217BB530C (.node 0x120E70743C (.node 0x120C5BF0E8 (.leaf 0x168DE) (.leaf 0x168C2)) (.node 0x121684F197 (.leaf 0x1B4B) (.leaf 0x1F42B))) (.node 0x121BA70C88 (.node 0x121A938C4F (.leaf 0x1FAF) (.leaf 0x1D028)) (.node 0x121C73B704 (.leaf 0x506) (.leaf 0x234B)))) (.node 0x12304FFCDD (.node 0x1229A0E3D5 (.node 0x12258DE3D5 (.leaf 0x291C) (.leaf 0x1D114)) (.node 0x122A6A717E (.leaf 0x1D15C) (.leaf 0xABD8))) (.node 0x123393F72C (.node 0x1231E8E9F4 (.leaf 0x2BEF) (.leaf 0x11A9C)) (.node 0x1233B7763B (.leaf 0x1D1CF) (.leaf 0x1F5B3))))
def nameTree_99 : NameTree := .node 0x12075CEC91 (.node 0x11EF4A0F4A (.node 0x11E3ED96AB (.node 0x11DD185160 (.leaf 0x17F4) (.node 0x11E0C7035D (.leaf 0x1F564) (.leaf 0x1EEF1))) (.node 0x11EA8293C8 (.node 0x11E6A6B32E (.leaf 0x1685C) (.leaf 0x2BB1)) (.node 0x11EE822927 (.leaf 0x1F83A) (.leaf 0x1D1E0)))) (.node 0x11F6F322BB (.node 0x11F535C473 (.node 0x11F49D0E2C (.leaf 0x114C5) (.leaf 0x1084C)) (.node 0x11F5AD0F2C (.leaf 0x2590) (.leaf 0x1084D))) (.node 0x11FE99182C (.node 0x11FB99182C (.leaf 0x11302) (.leaf 0x10855)) (.node 0x11FF604AA0 (.leaf 0x10845) (.leaf 0x168C8))))) (nameTree_98)
def nameTree_100 : NameTree := .node 0x126659E8F2 (.node 0x124B020897 (.node 0x123DC618EC (.node 0x1235378B8D (.leaf 0x16963) (.node 0x123D7E0F1F (.leaf 0x760) (.leaf 0x7EE))) (.node 0x1243D91EA2 (.node 0x123FBA4A21 (.leaf 0x1F949) (.leaf 0xDF3)) (.node 0x1244673E32 (.leaf 0x10199) (.leaf 0xFF07)))) (.node 0x12565C4786 (.node 0x1256364086 (.node 0x124ECEB8DA (.leaf 0x1F44B) (.leaf 0x4EF)) (.node 0x1256574686 (.leaf 0x11A95) (.leaf 0x11A8C))) (.node 0x125F491768 (.node 0x125E9BB7FA (.leaf 0x11A93) (.leaf 0xFC59)) (.node 0x1260D9806A (.leaf 0x22CB) (.leaf 0x2E2B))))) (.node 0x12832AEF8F (.node 0x126F3E4A4E (.node 0x12665BF244 (.leaf 0x16948) (.node 0x12665DFCF2 (.leaf 0x1692A) (.leaf 0x16901))) (.node 0x1278BF5CD5 (.node 0x12773C2911 (.leaf 0x1F596) (.leaf 0xFCEA)) (.node 0x127B4864DE (.leaf 0x1D744) (.leaf 0x1F30F)))) (.node 0x12987305DB (.node 0x1292A83678 (.node 0x12929AAFBB (.leaf 0x1E71) (.leaf 0x24F)) (.node 0x1293B83778 (.leaf 0x10893) (.leaf 0x10895))) (.node 0x1299A44078 (.node 0x12988D6C56 (.leaf 0x238B) (.leaf 0xF83)) (.node 0x129CA44078 (.leaf 0x1089E) (.leaf 0x10888)))))
def nameTree_101 : NameTree := .node 0x12CF822D5E (.node 0x12CF6E195E (.node 0x12C94093C5 (.node 0x12C54AE734 (.leaf 0x169C7) (.leaf 0xFD78)) (.node 0x12CB5DB0E8 (.leaf 0x1F011) (.leaf 0x1BC95))) (.node 0x12CF6E2D5E (.node 0x12CF6E215E (.leaf 0x11630) (.leaf 0x1163A)) (.node 0x12CF76215E (.leaf 0x1163C) (.leaf 0x11632)))) (.node 0x12EEBCB6CC (.node 0x12DF2F121D (.node 0x12DA3B6F51 (.leaf 0x11634) (.leaf 0xA964)) (.node 0x12E92C1E0C (.leaf 0x2035) (.leaf 0x1E69))) (.node 0x12F02B5B8A (.node 0x12EEBCBFCC (.leaf 0x1D32) (.leaf 0x1D3B)) (.node 0x12F19FB3B2 (.leaf 0x388) (.leaf 0x1A59))))
def nameTree_102 : NameTree := .node 0x12BD59E8F2 (.node 0x12A8F70F02 (.node 0x12A172A10C (.node 0x129E6945A5 (.leaf 0xA96F) (.node 0x129F4528BD (.leaf 0x1BC49) (.leaf 0x2196))) (.node 0x12A49200BB (.node 0x12A3ADF2A7 (.leaf 0x27DC) (.leaf 0x1D09E)) (.node 0x12A630FC97 (.leaf 0x1C82) (.leaf 0xFBFC)))) (.node 0x12B35609A6 (.node 0x12B248900D (.node 0x12A97B3149 (.leaf 0x1BB3) (.leaf 0x2AC6)) (.node 0x12B2CDE415 (.leaf 0x1C59) (.leaf 0x23CB))) (.node 0x12B7561CD4 (.node 0x12B3F42C2B (.leaf 0x1F79E) (.leaf 0x219E)) (.node 0x12BC44810B (.leaf 0xFE4C) (.leaf 0x1A1F))))) (nameTree_101)
def nameTree_103 : NameTree := .node 0x13529A4C77 (.node 0x134FD43995 (.node 0x134FD42B95 (.node 0x134DFA8E26 (.leaf 0x1D704) (.leaf 0xBE7)) (.node 0x134FD42F95 (.leaf 0x118A1) (.leaf 0x118A8))) (.node 0x1351F5A126 (.node 0x1350555957 (.leaf 0x118A9) (.leaf 0x33FE)) (.node 0x13524534B1 (.leaf 0xBEC) (.leaf 0x1CD8)))) (.node 0x13714DB288 (.node 0x13604181AC (.node 0x1353039826 (.leaf 0x226B) (.leaf 0xBE8)) (.node 0x13663CED6B (.leaf 0x15AE) (.leaf 0x10188))) (.node 0x1373467C7E (.node 0x13723F15CF (.leaf 0x1945) (.leaf 0xAE7)) (.node 0x137458D1D4 (.leaf 0x17D1) (.leaf 0x1F6C))))
def nameTree_104 : NameTree := .node 0x134A4761BD (.node 0x1320FC45E5 (.node 0x130B8A3355 (.node 0x12FEBAFB52 (.leaf 0x239C) (.node 0x13067588C0 (.leaf 0x6B5) (.leaf 0x51F))) (.node 0x13124DAFAC (.node 0x1311F76F51 (.leaf 0x10CFE) (.leaf 0x1113)) (.node 0x131435AB9B (.leaf 0x2543) (.leaf 0x121D5)))) (.node 0x13325461D9 (.node 0x1330307510 (.node 0x1327F7CD08 (.leaf 0x2EC8) (.leaf 0x1B37)) (.node 0x13307A1F0A (.leaf 0x1F693) (.leaf 0xAB55))) (.node 0x133A2338B4 (.node 0x133874E62B (.leaf 0x2418) (.leaf 0x1F474)) (.node 0x1349634D6F (.leaf 0x1F65B) (.leaf 0x1563))))) (nameTree_103)
def nameTree_105 : NameTree := .node 0x13AB9B671A (.node 0x13A9E7FEE7 (.node 0x13A9B85ACA (.node 0x13A9B858CA (.leaf 0x1DA6) (.leaf 0x1DAB)) (.node 0x13A9B861CA (.leaf 0x1DB0) (.leaf 0x1DB8))) (.node 0x13AB9B641A (.node 0x13AB9B621A (.leaf 0x1F4C9) (.leaf 0x10C0A)) (.node 0x13AB9B651A (.leaf 0x10C12) (.leaf 0x10C02)))) (.node 0x13AB9B741A (.node 0x13AB9B711A (.node 0x13AB9B6C1A (.leaf 0x10C0E) (.leaf 0x10C1F)) (.node 0x13AB9B721A (.leaf 0x10C35) (.leaf 0x10C3B))) (.node 0x13AB9F631A (.node 0x13AB9B791A (.leaf 0x10C44) (.leaf 0x10C17)) (.node 0x13AB9F7A1A (.leaf 0x10C33) (.leaf 0x10C15))))
def nameTree_106 : NameTree := .node 0x13A9B855CA (.node 0x1392907E35 (.node 0x1380B36493 (.node 0x1377481FCF (.leaf 0xAEC) (.node 0x137FF4BED4 (.leaf 0xAE8) (.leaf 0x2029))) (.node 0x13897D07C9 (.node 0x13814027A2 (.leaf 0x2E1D) (.leaf 0x2040)) (.node 0x138C917135 (.leaf 0x1F452) (.leaf 0x2478)))) (.node 0x139DFA18E9 (.node 0x139487EC81 (.node 0x1393A5AB6E (.leaf 0x2477) (.leaf 0x169E3)) (.node 0x13954D9F23 (.leaf 0x2909) (.leaf 0xAAF2))) (.node 0x13A45C519B (.node 0x13A0AE5C72 (.leaf 0x1BB8) (.leaf 0x833)) (.node 0x13A528A421 (.leaf 0x1688A) (.leaf 0x22DE))))) (nameTree_105)
def nameTree_107 : NameTree := .node 0x13BCD4039B (.node 0x13B11B5C82 (.node 0x13B1175C82 (.node 0x13B1155C82 (.leaf 0x10A2F) (.leaf 0x10A1F)) (.node 0x13B11A5C82 (.leaf 0x10A2C) (.leaf 0x10A29))) (.node 0x13B1BF9B05 (.node 0x13B13643B4 (.leaf 0x10A30) (.leaf 0x2E29)) (.node 0x13B86A559B (.leaf 0x337E) (.leaf 0x1687A)))) (.node 0x13C7F263DB (.node 0x13BCD4059B (.node 0x13BCD4049B (.leaf 0x1D1CC) (.leaf 0x1D1CD)) (.node 0x13C6904D78 (.leaf 0x1D1CE) (.leaf 0x1F01A))) (.node 0x13C9376B3B (.node 0x13C9375D3B (.leaf 0xD7E9) (.leaf 0x53E)) (.node 0x13C9385D3B (.leaf 0x551) (.leaf 0x534))))
def nameTree_108 : NameTree := .node 0x13B1145C82 (.node 0x13B1095C82 (.node 0x13B1035C82 (.node 0x13ABA9651A (.leaf 0x10C37) (.node 0x13ABA9711A (.leaf 0x10C08) (.leaf 0x10C39))) (.node 0x13B1055C82 (.node 0x13B1045C82 (.leaf 0x10A26) (.leaf 0x10A15)) (.node 0x13B1085C82 (.leaf 0x10A21) (.leaf 0x10A12)))) (.node 0x13B10E5C82 (.node 0x13B10C5C82 (.node 0x13B10B5C82 (.leaf 0x10A31) (.leaf 0x10A17)) (.node 0x13B10D5C82 (.leaf 0x10A10) (.leaf 0x10A2B))) (.node 0x13B1115C82 (.node 0x13B10F5C82 (.leaf 0x10A28) (.leaf 0x10A23)) (.node 0x13B1135C82 (.leaf 0x10A24) (.leaf 0x10A2A))))) (nameTree_107)
def nameTree_109 : NameTree := .node 0x142035AB9B (.node 0x13FD108ED6 (.node 0x13F0D59809 (.node 0x13EDFE2B4F (.leaf 0xFBA9) (.leaf 0x118ED)) (.node 0x13FB196F51 (.leaf 0xFFF9) (.leaf 0x111E))) (.node 0x140F6A529B (.node 0x13FF5360A1 (.leaf 0xFEBF) (.leaf 0x1FBD)) (.node 0x141B03C022 (.leaf 0x168B5) (.leaf 0x23FD)))) (.node 0x1426AC9E55 (.node 0x1423136334 (.node 0x1420C09555 (.leaf 0x121DA) (.leaf 0x10B6D)) (.node 0x14246BEA9D (.leaf 0x55F) (.leaf 0x1F77))) (.node 0x14341471E4 (.node 0x14273D9526 (.leaf 0x10B72) (.leaf 0x1DA4D)) (.node 0x1436753778 (.leaf 0x104CC) (.leaf 0x8B9))))
def nameTree_110 : NameTree := .node 0x13ED5F6A0A (.node 0x13C94A6B3B (.node 0x13C93E5D3B (.node 0x13C939703B (.leaf 0x537) (.node 0x13C93C6B3B (.leaf 0x538) (.leaf 0x540))) (.node 0x13C9465D3B (.node 0x13C943643B (.leaf 0x541) (.leaf 0x555)) (.node 0x13C9486B3B (.leaf 0x54C) (.leaf 0x539)))) (.node 0x13DF8CE9F9 (.node 0x13C94E5D3B (.node 0x13C94D653B (.leaf 0x548) (.leaf 0x545)) (.node 0x13CC6A63DB (.leaf 0x536) (.leaf 0x11E4))) (.node 0x13E3B9F8E7 (.node 0x13DFAE20A6 (.leaf 0xFCEC) (.leaf 0x4DCC)) (.node 0x13E9A90EC7 (.leaf 0x480) (.leaf 0xD4))))) (nameTree_109)
def nameTree_111 : NameTree := .node 0x149BF4D755 (.node 0x149107A5DE (.node 0x147FCFCA3A (.node 0x147A698374 (.leaf 0xA880) (.leaf 0xFC3A)) (.node 0x14802BD382 (.leaf 0x608) (.leaf 0x1D1F))) (.node 0x1493C8B7D6 (.node 0x1493115349 (.leaf 0x12403) (.leaf 0x12402)) (.node 0x1493D41C03 (.leaf 0xFEBB) (.leaf 0x1D8D)))) (.node 0x14B1AA5226 (.node 0x14AC2BF621 (.node 0x14A58C28B2 (.leaf 0x17F9) (.leaf 0x2A0E)) (.node 0x14B09B83EC (.leaf 0x22DF) (.leaf 0x10B61))) (.node 0x14B8605CAF (.node 0x14B1AB86E9 (.leaf 0xFDAF) (.leaf 0x109ED)) (.node 0x14BBBE5FE0 (.leaf 0x16857) (.leaf 0x44B))))
def nameTree_112 : NameTree := .node 0x14701667EB (.node 0x144CF56628 (.node 0x14445F30C7 (.node 0x143DFA00C2 (.leaf 0x2C5E) (.node 0x143F5A386E (.leaf 0xE48) (.leaf 0x3F5))) (.node 0x144705F9BB (.node 0x14445F36C7 (.leaf 0xC0C) (.leaf 0xC0B)) (.node 0x1448348055 (.leaf 0x1F3F8) (.leaf 0x12543)))) (.node 0x146363C7CB (.node 0x1455604DAF (.node 0x14525C519B (.leaf 0x1F813) (.leaf 0x16931)) (.node 0x1456705C9B (.leaf 0x1684D) (.leaf 0x1693B))) (.node 0x14675ABE5A (.node 0x14666A519B (.leaf 0x27E6) (.leaf 0x16945)) (.node 0x146FD2759F (.leaf 0x124F4) (.leaf 0x1EAA))))) (nameTree_111)
def nameTree_113 : NameTree := .node 0x14DDAF39BC (.node 0x14DDAF2EBC (.node 0x14DDAF2CBC (.node 0x14DDAF2BBC (.leaf 0x1B172) (.leaf 0x1B173)) (.node 0x14DDAF2DBC (.leaf 0x1B174) (.leaf 0x1B175))) (.node 0x14DDAF30BC (.node 0x14DDAF2FBC (.leaf 0x1B176) (.leaf 0x1B177)) (.node 0x14DDAF31BC (.leaf 0x1B178) (.leaf 0x1B179)))) (.node 0x14DDAF3DBC (.node 0x14DDAF3BBC (.node 0x14DDAF3ABC (.leaf 0x1B17A) (.leaf 0x1B17B)) (.node 0x14DDAF3CBC (.leaf 0x1B17C) (.leaf 0x1B17D))) (.node 0x14DDB028BC (.node 0x14DDAF3EBC (.leaf 0x1B17E) (.leaf 0x1B17F)) (.node 0x14DDB029BC (.leaf 0x1B180) (.leaf 0x1B181))))
def nameTree_114 : NameTree := .node 0x14DDAF2ABC (.node 0x14D1DEBBB1 (.node 0x14C8EABA69 (.node 0x14C5E4A4D6 (.leaf 0x16A67) (.node 0x14C776B212 (.leaf 0x4DF2) (.leaf 0x32B6))) (.node 0x14CC3D9E6F (.node 0x14CB71C512 (.leaf 0x1F200) (.leaf 0x32BB)) (.node 0x14CC7FBC12 (.leaf 0x1F593) (.leaf 0x32B7)))) (.node 0x14D8A1AA9E (.node 0x14D59A8EAD (.node 0x14D1E4C1B1 (.leaf 0x1118C) (.leaf 0x1118A)) (.node 0x14D59F9140 (.leaf 0x1F558) (.leaf 0x26ED))) (.node 0x14DDAF28BC (.node 0x14DD0F9135 (.leaf 0x1246B) (.leaf 0x1F53C)) (.node 0x14DDAF29BC (.leaf 0x1B170) (.leaf 0x1B171))))) (nameTree_113)
def nameTree_115 : NameTree := .node 0xF0673A74C (.node 0xDC8B15CC2 (.node 0xC46EB6F98 (.node 0xB4DD702FC (.node 0xAFD63AEDE (nameTree_58) (nameTree_60)) (.node 0xB99D2D508 (nameTree_62) (nameTree_64))) (.node 0xCF11A92F6 (.node 0xCCF23693D (nameTree_65) (nameTree_67)) (.node 0xD576B591F (nameTree_69) (nameTree_71)))) (.node 0xE1F43B563 (.node 0xE1F35AB63 (.node 0xDF99A52A7 (nameTree_72) (nameTree_74)) (.node 0xE1F3DA563 (nameTree_76) (nameTree_78))) (.node 0xE575E111F (.node 0xE1F4BA163 (nameTree_79) (nameTree_81)) (.node 0xEC1A8C49D (nameTree_83) (nameTree_85))))) (.node 0x1234375AC9 (.node 0x101C57B27C (.node 0xF59A0806F (.node 0xF0772A54C (nameTree_86) (nameTree_88)) (.node 0xFB395FA3B (nameTree_90) (nameTree_92))) (.node 0x11301D82D2 (.node 0x1070BBB171 (nameTree_93) (nameTree_95)) (.node 0x11DAABDC3B (nameTree_97) (nameTree_99)))) (.node 0x13ABA3711A (.node 0x12FD681EA7 (.node 0x129D666F51 (nameTree_100) (nameTree_102)) (.node 0x13763A28CF (nameTree_104) (nameTree_106))) (.node 0x14393A8740 (.node 0x13C939643B (nameTree_108) (nameTree_110)) (.node 0x14BDE8315F (nameTree_112) (nameTree_114)))))
def nameTree_116 : NameTree := .node 0x14DDB129BC (.node 0x14DDB031BC (.node 0x14DDB02DBC (.node 0x14DDB02BBC (.leaf 0x1B182) (.node 0x14DDB02CBC (.leaf 0x1B183) (.leaf 0x1B184))) (.node 0x14DDB02FBC (.node 0x14DDB02EBC (.leaf 0x1B185) (.leaf 0x1B186)) (.node 0x14DDB030BC (.leaf 0x1B187) (.leaf 0x1B188)))) (.node 0x14DDB03CBC (.node 0x14DDB03ABC (.node 0x14DDB039BC (.leaf 0x1B189) (.leaf 0x1B18A)) (.node 0x14DDB03BBC (.leaf 0x1B18B) (.leaf 0x1B18C))) (.node 0x14DDB03EBC (.node 0x14DDB03DBC (.leaf 0x1B18D) (.leaf 0x1B18E)) (.node 0x14DDB128BC (.leaf 0x1B18F) (.leaf 0x1B190))))) (.node 0x14DDB130BC (.node 0x14DDB12CBC (.node 0x14DDB12ABC (.leaf 0x1B191) (.node 0x14DDB12BBC (.leaf 0x1B192) (.leaf 0x1B193))) (.node 0x14DDB12EBC (.node 0x14DDB12DBC (.leaf 0x1B194) (.leaf 0x1B195)) (.node 0x14DDB12FBC (.leaf 0x1B196) (.leaf 0x1B197)))) (.node 0x14DDB13BBC (.node 0x14DDB139BC (.node 0x14DDB131BC (.leaf 0x1B198) (.leaf 0x1B199)) (.node 0x14DDB13ABC (.leaf 0x1B19A) (.leaf 0x1B19B))) (.node 0x14DDB13DBC (.node 0x14DDB13CBC (.leaf 0x1B19C) (.leaf 0x1B19D)) (.node 0x14DDB13EBC (.leaf 0x1B19E) (.leaf 0x1B19F)))))
def nameTree_117 : NameTree := .node 0x14DDBA2FBC (.node 0x14DDBA2BBC (.node 0x14DDBA29BC (.node 0x14DDBA28BC (.leaf 0x1B1AF) (.leaf 0x1B1B0)) (.node 0x14DDBA2ABC (.leaf 0x1B1B1) (.leaf 0x1B1B2))) (.node 0x14DDBA2DBC (.node 0x14DDBA2CBC (.leaf 0x1B1B3) (.leaf 0x1B1B4)) (.node 0x14DDBA2EBC (.leaf 0x1B1B5) (.leaf 0x1B1B6)))) (.node 0x14DDBA3ABC (.node 0x14DDBA31BC (.node 0x14DDBA30BC (.leaf 0x1B1B7) (.leaf 0x1B1B8)) (.node 0x14DDBA39BC (.leaf 0x1B1B9) (.leaf 0x1B1BA))) (.node 0x14DDBA3CBC (.node 0x14DDBA3BBC (.leaf 0x1B1BB) (.leaf 0x1B1BC)) (.node 0x14DDBA3DBC (.leaf 0x1B1BD) (.leaf 0x1B1BE))))
def nameTree_118 : NameTree := .node 0x14DDB93EBC (.node 0x14DDB92FBC (.node 0x14DDB92BBC (.node 0x14DDB929BC (.leaf 0x1B1A0) (.node 0x14DDB92ABC (.leaf 0x1B1A1) (.leaf 0x1B1A2))) (.node 0x14DDB92DBC (.node 0x14DDB92CBC (.leaf 0x1B1A3) (.leaf 0x1B1A4)) (.node 0x14DDB92EBC (.leaf 0x1B1A5) (.leaf 0x1B1A6)))) (.node 0x14DDB93ABC (.node 0x14DDB931BC (.node 0x14DDB930BC (.leaf 0x1B1A7) (.leaf 0x1B1A8)) (.node 0x14DDB939BC (.leaf 0x1B1A9) (.leaf 0x1B1AA))) (.node 0x14DDB93CBC (.node 0x14DDB93BBC (.leaf 0x1B1AB) (.leaf 0x1B1AC)) (.node 0x14DDB93DBC (.leaf 0x1B1AD) (.leaf 0x1B1AE))))) (nameTree_117)
def nameTree_119 : NameTree := .node 0x14DDBC2EBC (.node 0x14DDBC2ABC (.node 0x14DDBC28BC (.node 0x14DDBB3EBC (.leaf 0x1B1CE) (.leaf 0x1B1CF)) (.node 0x14DDBC29BC (.leaf 0x1B1D0) (.leaf 0x1B1D1))) (.node 0x14DDBC2CBC (.node 0x14DDBC2BBC (.leaf 0x1B1D2) (.leaf 0x1B1D3)) (.node 0x14DDBC2DBC (.leaf 0x1B1D4) (.leaf 0x1B1D5)))) (.node 0x14DDBC39BC (.node 0x14DDBC30BC (.node 0x14DDBC2FBC (.leaf 0x1B1D6) (.leaf 0x1B1D7)) (.node 0x14DDBC31BC (.leaf 0x1B1D8) (.leaf 0x1B1D9))) (.node 0x14DDBC3BBC (.node 0x14DDBC3ABC (.leaf 0x1B1DA) (.leaf 0x1B1DB)) (.node 0x14DDBC3CBC (.leaf 0x1B1DC) (.leaf 0x1B1DD))))
def nameTree_120 : NameTree := .node 0x14DDBB3DBC (.node 0x14DDBB2EBC (.node 0x14DDBB2ABC (.node 0x14DDBB28BC (.leaf 0x1B1BF) (.node 0x14DDBB29BC (.leaf 0x1B1C0) (.leaf 0x1B1C1))) (.node 0x14DDBB2CBC (.node 0x14DDBB2BBC (.leaf 0x1B1C2) (.leaf 0x1B1C3)) (.node 0x14DDBB2DBC (.leaf 0x1B1C4) (.leaf 0x1B1C5)))) (.node 0x14DDBB39BC (.node 0x14DDBB30BC (.node 0x14DDBB2FBC (.leaf 0x1B1C6) (.leaf 0x1B1C7)) (.node 0x14DDBB31BC (.leaf 0x1B1C8) (.leaf 0x1B1C9))) (.node 0x14DDBB3BBC (.node 0x14DDBB3ABC (.leaf 0x1B1CA) (.leaf 0x1B1CB)) (.node 0x14DDBB3CBC (.leaf 0x1B1CC) (.leaf 0x1B1CD))))) (nameTree_119)
def nameTree_121 : NameTree := .node 0x14DDBE2DBC (.node 0x14DDBE29BC (.node 0x14DDBD3EBC (.node 0x14DDBD3DBC (.leaf 0x1B1ED) (.leaf 0x1B1EE)) (.node 0x14DDBE28BC (.leaf 0x1B1EF) (.leaf 0x1B1F0))) (.node 0x14DDBE2BBC (.node 0x14DDBE2ABC (.leaf 0x1B1F1) (.leaf 0x1B1F2)) (.node 0x14DDBE2CBC (.leaf 0x1B1F3) (.leaf 0x1B1F4)))) (.node 0x14DDBE31BC (.node 0x14DDBE2FBC (.node 0x14DDBE2EBC (.leaf 0x1B1F5) (.leaf 0x1B1F6)) (.node 0x14DDBE30BC (.leaf 0x1B1F7) (.leaf 0x1B1F8))) (.node 0x14DDBE3ABC (.node 0x14DDBE39BC (.leaf 0x1B1F9) (.leaf 0x1B1FA)) (.node 0x14DDBE3BBC (.leaf 0x1B1FB) (.leaf 0x1B1FC))))
def nameTree_122 : NameTree := .node 0x14DDBD3CBC (.node 0x14DDBD2DBC (.node 0x14DDBD29BC (.node 0x14DDBC3EBC (.leaf 0x1B1DE) (.node 0x14DDBD28BC (.leaf 0x1B1DF) (.leaf 0x1B1E0))) (.node 0x14DDBD2BBC (.node 0x14DDBD2ABC (.leaf 0x1B1E1) (.leaf 0x1B1E2)) (.node 0x14DDBD2CBC (.leaf 0x1B1E3) (.leaf 0x1B1E4)))) (.node 0x14DDBD31BC (.node 0x14DDBD2FBC (.node 0x14DDBD2EBC (.leaf 0x1B1E5) (.leaf 0x1B1E6)) (.node 0x14DDBD30BC (.leaf 0x1B1E7) (.leaf 0x1B1E8))) (.node 0x14DDBD3ABC (.node 0x14DDBD39BC (.leaf 0x1B1E9) (.leaf 0x1B1EA)) (.node 0x14DDBD3BBC (.leaf 0x1B1EB) (.leaf 0x1B1EC))))) (nameTree_121)
def nameTree_123 : NameTree := .node 0x14DEA83BBC (.node 0x14DEA82CBC (.node 0x14DEA828BC (.node 0x14DDBE3DBC (.leaf 0x1B1FD) (.node 0x14DDBE3EBC (.leaf 0x1B1FE) (.leaf 0x1B1FF))) (.node 0x14DEA82ABC (.node 0x14DEA829BC (.leaf 0x1B200) (.leaf 0x1B201)) (.node 0x14DEA82BBC (.leaf 0x1B202) (.leaf 0x1B203)))) (.node 0x14DEA830BC (.node 0x14DEA82EBC (.node 0x14DEA82DBC (.leaf 0x1B204) (.leaf 0x1B205)) (.node 0x14DEA82FBC (.leaf 0x1B206) (.leaf 0x1B207))) (.node 0x14DEA839BC (.node 0x14DEA831BC (.leaf 0x1B208) (.leaf 0x1B209)) (.node 0x14DEA83ABC (.leaf 0x1B20A) (.leaf 0x1B20B))))) (.node 0x14DEA92BBC (.node 0x14DEA83EBC (.node 0x14DEA83CBC (.leaf 0x1B20C) (.node 0x14DEA83DBC (.leaf 0x1B20D) (.leaf 0x1B20E))) (.node 0x14DEA929BC (.node 0x14DEA928BC (.leaf 0x1B20F) (.leaf 0x1B210)) (.node 0x14DEA92ABC (.leaf 0x1B211) (.leaf 0x1B212)))) (.node 0x14DEA92FBC (.node 0x14DEA92DBC (.node 0x14DEA92CBC (.leaf 0x1B213) (.leaf 0x1B214)) (.node 0x14DEA92EBC (.leaf 0x1B215) (.leaf 0x1B216))) (.node 0x14DEA931BC (.node 0x14DEA930BC (.leaf 0x1B217) (.leaf 0x1B218)) (.node 0x14DEA939BC (.leaf 0x1B219) (.leaf 0x1B21A)))))
def nameTree_124 : NameTree := .node 0x14DEAB2ABC (.node 0x14DEAA3DBC (.node 0x14DEAA3BBC (.node 0x14DEAA3ABC (.leaf 0x1B22A) (.leaf 0x1B22B)) (.node 0x14DEAA3CBC (.leaf 0x1B22C) (.leaf 0x1B22D))) (.node 0x14DEAB28BC (.node 0x14DEAA3EBC (.leaf 0x1B22E) (.leaf 0x1B22F)) (.node 0x14DEAB29BC (.leaf 0x1B230) (.leaf 0x1B231)))) (.node 0x14DEAB2EBC (.node 0x14DEAB2CBC (.node 0x14DEAB2BBC (.leaf 0x1B232) (.leaf 0x1B233)) (.node 0x14DEAB2DBC (.leaf 0x1B234) (.leaf 0x1B235))) (.node 0x14DEAB30BC (.node 0x14DEAB2FBC (.leaf 0x1B236) (.leaf 0x1B237)) (.node 0x14DEAB31BC (.leaf 0x1B238) (.leaf 0x1B239))))
def nameTree_125 : NameTree := .node 0x14DEAA39BC (.node 0x14DEAA2ABC (.node 0x14DEA93DBC (.node 0x14DEA93BBC (.leaf 0x1B21B) (.node 0x14DEA93CBC (.leaf 0x1B21C) (.leaf 0x1B21D))) (.node 0x14DEAA28BC (.node 0x14DEA93EBC (.leaf 0x1B21E) (.leaf 0x1B21F)) (.node 0x14DEAA29BC (.leaf 0x1B220) (.leaf 0x1B221)))) (.node 0x14DEAA2EBC (.node 0x14DEAA2CBC (.node 0x14DEAA2BBC (.leaf 0x1B222) (.leaf 0x1B223)) (.node 0x14DEAA2DBC (.leaf 0x1B224) (.leaf 0x1B225))) (.node 0x14DEAA30BC (.node 0x14DEAA2FBC (.leaf 0x1B226) (.leaf 0x1B227)) (.node 0x14DEAA31BC (.leaf 0x1B228) (.leaf 0x1B229))))) (nameTree_124)
def nameTree_126 : NameTree := .node 0x14DEAD29BC (.node 0x14DEAC3CBC (.node 0x14DEAC3ABC (.node 0x14DEAC39BC (.leaf 0x1B249) (.leaf 0x1B24A)) (.node 0x14DEAC3BBC (.leaf 0x1B24B) (.leaf 0x1B24C))) (.node 0x14DEAC3EBC (.node 0x14DEAC3DBC (.leaf 0x1B24D) (.leaf 0x1B24E)) (.node 0x14DEAD28BC (.leaf 0x1B24F) (.leaf 0x1B250)))) (.node 0x14DEAD2DBC (.node 0x14DEAD2BBC (.node 0x14DEAD2ABC (.leaf 0x1B251) (.leaf 0x1B252)) (.node 0x14DEAD2CBC (.leaf 0x1B253) (.leaf 0x1B254))) (.node 0x14DEAD2FBC (.node 0x14DEAD2EBC (.leaf 0x1B255) (.leaf 0x1B256)) (.node 0x14DEAD30BC (.leaf 0x1B257) (.leaf 0x1B258))))
def nameTree_127 : NameTree := .node 0x14DEAC31BC (.node 0x14DEAC29BC (.node 0x14DEAB3CBC (.node 0x14DEAB3ABC (.leaf 0x1B23A) (.node 0x14DEAB3BBC (.leaf 0x1B23B) (.leaf 0x1B23C))) (.node 0x14DEAB3EBC (.node 0x14DEAB3DBC (.leaf 0x1B23D) (.leaf 0x1B23E)) (.node 0x14DEAC28BC (.leaf 0x1B23F) (.leaf 0x1B240)))) (.node 0x14DEAC2DBC (.node 0x14DEAC2BBC (.node 0x14DEAC2ABC (.leaf 0x1B241) (.leaf 0x1B242)) (.node 0x14DEAC2CBC (.leaf 0x1B243) (.leaf 0x1B244))) (.node 0x14DEAC2FBC (.node 0x14DEAC2EBC (.leaf 0x1B245) (.leaf 0x1B246)) (.node 0x14DEAC30BC (.leaf 0x1B247) (.leaf 0x1B248))))) (nameTree_126)
def nameTree_128 : NameTree := .node 0x14DEAF28BC (.node 0x14DEAE3BBC (.node 0x14DEAE39BC (.node 0x14DEAE31BC (.leaf 0x1B268) (.leaf 0x1B269)) (.node 0x14DEAE3ABC (.leaf 0x1B26A) (.leaf 0x1B26B))) (.node 0x14DEAE3DBC (.node 0x14DEAE3CBC (.leaf 0x1B26C) (.leaf 0x1B26D)) (.node 0x14DEAE3EBC (.leaf 0x1B26E) (.leaf 0x1B26F)))) (.node 0x14DEAF2CBC (.node 0x14DEAF2ABC (.node 0x14DEAF29BC (.leaf 0x1B270) (.leaf 0x1B271)) (.node 0x14DEAF2BBC (.leaf 0x1B272) (.leaf 0x1B273))) (.node 0x14DEAF2EBC (.node 0x14DEAF2DBC (.leaf 0x1B274) (.leaf 0x1B275)) (.node 0x14DEAF2FBC (.leaf 0x1B276) (.leaf 0x1B277))))
def nameTree_129 : NameTree := .node 0x14DEAE30BC (.node 0x14DEAE28BC (.node 0x14DEAD3BBC (.node 0x14DEAD39BC (.leaf 0x1B259) (.node 0x14DEAD3ABC (.leaf 0x1B25A) (.leaf 0x1B25B))) (.node 0x14DEAD3DBC (.node 0x14DEAD3CBC (.leaf 0x1B25C) (.leaf 0x1B25D)) (.node 0x14DEAD3EBC (.leaf 0x1B25E) (.leaf 0x1B25F)))) (.node 0x14DEAE2CBC (.node 0x14DEAE2ABC (.node 0x14DEAE29BC (.leaf 0x1B260) (.leaf 0x1B261)) (.node 0x14DEAE2BBC (.leaf 0x1B262) (.leaf 0x1B263))) (.node 0x14DEAE2EBC (.node 0x14DEAE2DBC (.leaf 0x1B264) (.leaf 0x1B265)) (.node 0x14DEAE2FBC (.leaf 0x1B266) (.leaf 0x1B267))))) (nameTree_128)
def nameTree_130 : NameTree := .node 0x14DEB02FBC (.node 0x14DEAF3EBC (.node 0x14DEAF3ABC (.node 0x14DEAF31BC (.leaf 0x1B278) (.node 0x14DEAF39BC (.leaf 0x1B279) (.leaf 0x1B27A))) (.node 0x14DEAF3CBC (.node 0x14DEAF3BBC (.leaf 0x1B27B) (.leaf 0x1B27C)) (.node 0x14DEAF3DBC (.leaf 0x1B27D) (.leaf 0x1B27E)))) (.node 0x14DEB02BBC (.node 0x14DEB029BC (.node 0x14DEB028BC (.leaf 0x1B27F) (.leaf 0x1B280)) (.node 0x14DEB02ABC (.leaf 0x1B281) (.leaf 0x1B282))) (.node 0x14DEB02DBC (.node 0x14DEB02CBC (.leaf 0x1B283) (.leaf 0x1B284)) (.node 0x14DEB02EBC (.leaf 0x1B285) (.leaf 0x1B286))))) (.node 0x14DEB03DBC (.node 0x14DEB039BC (.node 0x14DEB030BC (.leaf 0x1B287) (.node 0x14DEB031BC (.leaf 0x1B288) (.leaf 0x1B289))) (.node 0x14DEB03BBC (.node 0x14DEB03ABC (.leaf 0x1B28A) (.leaf 0x1B28B)) (.node 0x14DEB03CBC (.leaf 0x1B28C) (.leaf 0x1B28D)))) (.node 0x14DEB12ABC (.node 0x14DEB128BC (.node 0x14DEB03EBC (.leaf 0x1B28E) (.leaf 0x1B28F)) (.node 0x14DEB129BC (.leaf 0x1B290) (.leaf 0x1B291))) (.node 0x14DEB12CBC (.node 0x14DEB12BBC (.leaf 0x1B292) (.leaf 0x1B293)) (.node 0x14DEB12DBC (.leaf 0x1B294) (.leaf 0x1B295)))))
def nameTree_131 : NameTree := .node 0x14DEB93CBC (.node 0x14DEB931BC (.node 0x14DEB92FBC (.node 0x14DEB92EBC (.leaf 0x1B2A5) (.leaf 0x1B2A6)) (.node 0x14DEB930BC (.leaf 0x1B2A7) (.leaf 0x1B2A8))) (.node 0x14DEB93ABC (.node 0x14DEB939BC (.leaf 0x1B2A9) (.leaf 0x1B2AA)) (.node 0x14DEB93BBC (.leaf 0x1B2AB) (.leaf 0x1B2AC)))) (.node 0x14DEBA29BC (.node 0x14DEB93EBC (.node 0x14DEB93DBC (.leaf 0x1B2AD) (.leaf 0x1B2AE)) (.node 0x14DEBA28BC (.leaf 0x1B2AF) (.leaf 0x1B2B0))) (.node 0x14DEBA2BBC (.node 0x14DEBA2ABC (.leaf 0x1B2B1) (.leaf 0x1B2B2)) (.node 0x14DEBA2CBC (.leaf 0x1B2B3) (.leaf 0x1B2B4))))
def nameTree_132 : NameTree := .node 0x14DEB92DBC (.node 0x14DEB13CBC (.node 0x14DEB131BC (.node 0x14DEB12FBC (.leaf 0x1B296) (.node 0x14DEB130BC (.leaf 0x1B297) (.leaf 0x1B298))) (.node 0x14DEB13ABC (.node 0x14DEB139BC (.leaf 0x1B299) (.leaf 0x1B29A)) (.node 0x14DEB13BBC (.leaf 0x1B29B) (.leaf 0x1B29C)))) (.node 0x14DEB929BC (.node 0x14DEB13EBC (.node 0x14DEB13DBC (.leaf 0x1B29D) (.leaf 0x1B29E)) (.node 0x14DEB928BC (.leaf 0x1B29F) (.leaf 0x1B2A0))) (.node 0x14DEB92BBC (.node 0x14DEB92ABC (.leaf 0x1B2A1) (.leaf 0x1B2A2)) (.node 0x14DEB92CBC (.leaf 0x1B2A3) (.leaf 0x1B2A4))))) (nameTree_131)
def nameTree_133 : NameTree := .node 0x14DEBB3BBC (.node 0x14DEBB30BC (.node 0x14DEBB2EBC (.node 0x14DEBB2DBC (.leaf 0x1B2C4) (.leaf 0x1B2C5)) (.node 0x14DEBB2FBC (.leaf 0x1B2C6) (.leaf 0x1B2C7))) (.node 0x14DEBB39BC (.node 0x14DEBB31BC (.leaf 0x1B2C8) (.leaf 0x1B2C9)) (.node 0x14DEBB3ABC (.leaf 0x1B2CA) (.leaf 0x1B2CB)))) (.node 0x14DEBC28BC (.node 0x14DEBB3DBC (.node 0x14DEBB3CBC (.leaf 0x1B2CC) (.leaf 0x1B2CD)) (.node 0x14DEBB3EBC (.leaf 0x1B2CE) (.leaf 0x1B2CF))) (.node 0x14DEBC2ABC (.node 0x14DEBC29BC (.leaf 0x1B2D0) (.leaf 0x1B2D1)) (.node 0x14DEBC2BBC (.leaf 0x1B2D2) (.leaf 0x1B2D3))))
def nameTree_134 : NameTree := .node 0x14DEBB2CBC (.node 0x14DEBA3BBC (.node 0x14DEBA30BC (.node 0x14DEBA2EBC (.leaf 0x1B2B5) (.node 0x14DEBA2FBC (.leaf 0x1B2B6) (.leaf 0x1B2B7))) (.node 0x14DEBA39BC (.node 0x14DEBA31BC (.leaf 0x1B2B8) (.leaf 0x1B2B9)) (.node 0x14DEBA3ABC (.leaf 0x1B2BA) (.leaf 0x1B2BB)))) (.node 0x14DEBB28BC (.node 0x14DEBA3DBC (.node 0x14DEBA3CBC (.leaf 0x1B2BC) (.leaf 0x1B2BD)) (.node 0x14DEBA3EBC (.leaf 0x1B2BE) (.leaf 0x1B2BF))) (.node 0x14DEBB2ABC (.node 0x14DEBB29BC (.leaf 0x1B2C0) (.leaf 0x1B2C1)) (.node 0x14DEBB2BBC (.leaf 0x1B2C2) (.leaf 0x1B2C3))))) (nameTree_133)
def nameTree_135 : NameTree := .node 0x14DEBD3ABC (.node 0x14DEBD2FBC (.node 0x14DEBD2DBC (.node 0x14DEBD2CBC (.leaf 0x1B2E3) (.leaf 0x1B2E4)) (.node 0x14DEBD2EBC (.leaf 0x1B2E5) (.leaf 0x1B2E6))) (.node 0x14DEBD31BC (.node 0x14DEBD30BC (.leaf 0x1B2E7) (.leaf 0x1B2E8)) (.node 0x14DEBD39BC (.leaf 0x1B2E9) (.leaf 0x1B2EA)))) (.node 0x14DEBD3EBC (.node 0x14DEBD3CBC (.node 0x14DEBD3BBC (.leaf 0x1B2EB) (.leaf 0x1B2EC)) (.node 0x14DEBD3DBC (.leaf 0x1B2ED) (.leaf 0x1B2EE))) (.node 0x14DEBE29BC (.node 0x14DEBE28BC (.leaf 0x1B2EF) (.leaf 0x1B2F0)) (.node 0x14DEBE2ABC (.leaf 0x1B2F1) (.leaf 0x1B2F2))))
def nameTree_136 : NameTree := .node 0x14DEBD2BBC (.node 0x14DEBC3ABC (.node 0x14DEBC2FBC (.node 0x14DEBC2DBC (.leaf 0x1B2D4) (.node 0x14DEBC2EBC (.leaf 0x1B2D5) (.leaf 0x1B2D6))) (.node 0x14DEBC31BC (.node 0x14DEBC30BC (.leaf 0x1B2D7) (.leaf 0x1B2D8)) (.node 0x14DEBC39BC (.leaf 0x1B2D9) (.leaf 0x1B2DA)))) (.node 0x14DEBC3EBC (.node 0x14DEBC3CBC (.node 0x14DEBC3BBC (.leaf 0x1B2DB) (.leaf 0x1B2DC)) (.node 0x14DEBC3DBC (.leaf 0x1B2DD) (.leaf 0x1B2DE))) (.node 0x14DEBD29BC (.node 0x14DEBD28BC (.leaf 0x1B2DF) (.leaf 0x1B2E0)) (.node 0x14DEBD2ABC (.leaf 0x1B2E1) (.leaf 0x1B2E2))))) (nameTree_135)
def nameTree_137 : NameTree := .node 0x14FDC26A75 (.node 0x14DEBE39BC (.node 0x14DEBE2EBC (.node 0x14DEBE2CBC (.leaf 0x1B2F3) (.node 0x14DEBE2DBC (.leaf 0x1B2F4) (.leaf 0x1B2F5))) (.node 0x14DEBE30BC (.node 0x14DEBE2FBC (.leaf 0x1B2F6) (.leaf 0x1B2F7)) (.node 0x14DEBE31BC (.leaf 0x1B2F8) (.leaf 0x1B2F9)))) (.node 0x14F96F7193 (.node 0x14EB1AE468 (.node 0x14DEBE3ABC (.leaf 0x1B2FA) (.leaf 0x1B2FB)) (.node 0x14F80B36AB (.leaf 0x16808) (.leaf 0x1F928))) (.node 0x14FD4E54BE (.node 0x14FC310D52 (.leaf 0x10A9D) (.leaf 0x1D9E2)) (.node 0x14FDB90975 (.leaf 0x1D13F) (.leaf 0x108EB))))) (.node 0x150F8B46DE (.node 0x1502161F50 (.node 0x14FE667A93 (.leaf 0x108EE) (.node 0x15005EA57C (.leaf 0x10A9E) (.leaf 0xFD23))) (.node 0x1507DB16C6 (.node 0x1502467ABF (.leaf 0x22B1) (.leaf 0x28FF)) (.node 0x150A9A4EBA (.leaf 0x29A4) (.leaf 0x1400)))) (.node 0x152A5C697E (.node 0x1518EA9149 (.node 0x1517BB5A35 (.leaf 0x1D8A3) (.leaf 0x101D7)) (.node 0x151B9ACF31 (.leaf 0x27CB) (.leaf 0x1D177))) (.node 0x152DF173D5 (.node 0x152A9166AC (.leaf 0xABD3) (.leaf 0x20E6)) (.node 0x15382F3D24 (.leaf 0x25DF) (.leaf 0x16B81)))))
def nameTree_138 : NameTree := .node 0x159A935693 (.node 0x1583CECD8C (.node 0x156FB0F247 (.node 0x156BA1C354 (.leaf 0xC62) (.leaf 0xC43)) (.node 0x1577460FC7 (.leaf 0x10A1B) (.leaf 0x29AB))) (.node 0x1596D48B97 (.node 0x1596D08797 (.leaf 0x168A2) (.leaf 0x12D3)) (.node 0x1599230DEB (.leaf 0x12D4) (.leaf 0x1D8A9)))) (.node 0x15ADB6EED2 (.node 0x15AC298326 (.node 0x15A1E7257C (.leaf 0x10388) (.leaf 0x2AEE)) (.node 0x15AD9EA573 (.leaf 0xFD61) (.leaf 0x837))) (.node 0x15B1604DAF (.node 0x15AEB9EA45 (.leaf 0x1D9AE) (.leaf 0xD02)) (.node 0x15BA3F96B6 (.leaf 0x1697C) (.leaf 0xAA78))))
def nameTree_139 : NameTree := .node 0x156BA1BD54 (.node 0x155BFD76C6 (.node 0x15450CE1AB (.node 0x1540656C2F (.leaf 0x10145) (.node 0x15407BB518 (.leaf 0x1C2) (.leaf 0x4DC))) (.node 0x15513DBFD5 (.node 0x15510A0D80 (.leaf 0xA66) (.leaf 0x10AF6)) (.node 0x155A5F4EF7 (.leaf 0x299E) (.leaf 0x16814)))) (.node 0x156321A71C (.node 0x156321971C (.node 0x155E5DFCF2 (.leaf 0x1DA15) (.leaf 0x1683E)) (.node 0x156321A11C (.leaf 0xA927) (.leaf 0xA92A))) (.node 0x15655A20B8 (.node 0x1564152BA1 (.leaf 0xA928) (.leaf 0x235F)) (.node 0x156B319624 (.leaf 0x1AA6) (.leaf 0x1E010))))) (nameTree_138)
def nameTree_140 : NameTree := .node 0x1621B5F1C0 (.node 0x160EE6143C (.node 0x160A9E18CD (.node 0x1608EB18CD (.leaf 0xDC5) (.leaf 0xDAB)) (.node 0x160E66979B (.leaf 0xDC2) (.leaf 0xDAC))) (.node 0x1613523C64 (.node 0x160FB84D2F (.leaf 0xFCB4) (.leaf 0x10CFB)) (.node 0x161679B752 (.leaf 0xFD22) (.leaf 0x275A)))) (.node 0x162934D9B9 (.node 0x1624026564 (.node 0x1621D3CDC7 (.leaf 0x7C9) (.leaf 0x1F35B)) (.node 0x16280D6664 (.leaf 0xFB14) (.leaf 0xFB15))) (.node 0x162D0E7464 (.node 0x162A6A717E (.leaf 0x3132) (.leaf 0xABC8)) (.node 0x16301D7773 (.leaf 0xFB13) (.leaf 0xFB16))))
def nameTree_141 : NameTree := .node 0x16083D18CD (.node 0x15DFE0DC36 (.node 0x15BF48A0B6 (.node 0x15BD6A58AF (.leaf 0x1687C) (.node 0x15BEC34FE0 (.leaf 0x1696F) (.leaf 0xA685))) (.node 0x15D4579CAB (.node 0x15CA7C4EEC (.leaf 0xAA79) (.leaf 0x1D071)) (.node 0x15DBDFED02 (.leaf 0xFB90) (.leaf 0x2512)))) (.node 0x15F62FE121 (.node 0x15F33EF3D4 (.node 0x15E52C6CCD (.leaf 0x1B48) (.leaf 0x33CE)) (.node 0x15F5782795 (.leaf 0xD66) (.leaf 0x1CEC))) (.node 0x15FA663448 (.node 0x15F62FE721 (.leaf 0xA8C) (.leaf 0xA8B)) (.node 0x15FE1D4879 (.leaf 0x20B9) (.leaf 0x1F5A9))))) (nameTree_140)
def nameTree_142 : NameTree := .node 0x169396A4E8 (.node 0x167E3C82B8 (.node 0x16745D142A (.node 0x1672D45427 (.leaf 0xA872) (.leaf 0x2021)) (.node 0x167A53832A (.leaf 0x2973) (.leaf 0x11101))) (.node 0x1684E122D4 (.node 0x167F77783C (.leaf 0x1D933) (.leaf 0x175)) (.node 0x168E1EA7E1 (.leaf 0x2FFB) (.leaf 0x1F671)))) (.node 0x16ABB0AD00 (.node 0x169C9788E5 (.node 0x169640E796 (.leaf 0x1D82) (.leaf 0xE7)) (.node 0x16A4959ABB (.leaf 0xA96B) (.leaf 0x2263))) (.node 0x16B0585E62 (.node 0x16ABBFA900 (.leaf 0x1F213) (.leaf 0x1F202)) (.node 0x16CC80990A (.leaf 0xA68A) (.leaf 0x3278))))
def nameTree_143 : NameTree := .node 0x166FC48558 (.node 0x1652634BFC (.node 0x16412514BF (.node 0x163EF0FEE8 (.leaf 0xFB17) (.node 0x163F0538A8 (.leaf 0xFEF1) (.leaf 0x10148))) (.node 0x16477E981C (.node 0x16477E921C (.leaf 0x1F677) (.leaf 0xB62)) (.node 0x164D717E9F (.leaf 0xB43) (.leaf 0x1D7BB)))) (.node 0x16566058AF (.node 0x165505E449 (.node 0x1653A6D16F (.leaf 0x2AD8) (.leaf 0x16AF4)) (.node 0x1655C3FBEA (.leaf 0x25AB) (.leaf 0x1F4B7))) (.node 0x1656D5850E (.node 0x1656605CAF (.leaf 0x1691F) (.leaf 0x1692B)) (.node 0x165C49D19F (.leaf 0x1043D) (.leaf 0x16A27))))) (nameTree_142)
def nameTree_144 : NameTree := .node 0x1727D41DAE (.node 0x16DD31703F (.node 0x16D1707441 (.node 0x16CD996D99 (.leaf 0x1F355) (.node 0x16CDC5E4F2 (.leaf 0x22F8) (.leaf 0x2A4C))) (.node 0x16D973703A (.node 0x16D5BB3D55 (.leaf 0x2A58) (.leaf 0x1B80)) (.node 0x16DB3E50F5 (.leaf 0xA756) (.leaf 0x1D30E)))) (.node 0x16F9E7B90A (.node 0x16EB28502E (.node 0x16E3859540 (.leaf 0x2051) (.leaf 0x124F6)) (.node 0x16F610C3A4 (.leaf 0x1F18) (.leaf 0xFD8E))) (.node 0x17032282EA (.node 0x1700CF2CAE (.leaf 0x3CF) (.leaf 0x21CF)) (.node 0x1710C835D4 (.leaf 0x242) (.leaf 0x1F638))))) (.node 0x17389BDAA9 (.node 0x172A75BA8D (.node 0x172904D9AF (.leaf 0xABE7) (.node 0x1729A05211 (.leaf 0xFC7A) (.leaf 0x18E))) (.node 0x1730785B4D (.node 0x172C65CC91 (.leaf 0xFD0) (.leaf 0x1D139)) (.node 0x17373299F7 (.leaf 0x1F924) (.leaf 0x1DA59)))) (.node 0x174129B086 (.node 0x173C0A9888 (.node 0x173921FA6F (.leaf 0x351) (.leaf 0x10191)) (.node 0x173C7E13BE (.leaf 0x33E6) (.leaf 0x1D04F))) (.node 0x174904EDDE (.node 0x174205682D (.leaf 0x728) (.leaf 0x61B)) (.node 0x174A22B372 (.leaf 0x12407) (.leaf 0x713)))))
def nameTree_145 : NameTree := .node 0x1781B774BA (.node 0x17815CD0BA (.node 0x1780C7731B (.node 0x1780BF75BF (.leaf 0x1E862) (.leaf 0x1E85F)) (.node 0x17815C16C4 (.leaf 0x1E861) (.leaf 0x1E8A7))) (.node 0x1781B21916 (.node 0x1781B1681B (.leaf 0x1E8AC) (.leaf 0x1E8AA)) (.node 0x1781B2D472 (.leaf 0x1E8A6) (.leaf 0x1E8A8)))) (.node 0x178268CC68 (.node 0x17825F2268 (.node 0x17825EC1BA (.leaf 0x1E886) (.leaf 0x1E86B)) (.node 0x17826322BF (.leaf 0x1E874) (.leaf 0x1E871))) (.node 0x1782B173BA (.node 0x178270291B (.leaf 0x1E86D) (.leaf 0x1E873)) (.node 0x1782C17EBF (.leaf 0x1E872) (.leaf 0x1E875))))
def nameTree_146 : NameTree := .node 0x1780B06F11 (.node 0x1777B4FD36 (.node 0x1757661301 (.node 0x174FEB53C9 (.leaf 0x42A) (.node 0x175423B1E6 (.leaf 0x2CE8) (.leaf 0xAB3C))) (.node 0x175ED61902 (.node 0x1758AF32F1 (.leaf 0x1073) (.leaf 0x18A6)) (.node 0x1767D114F1 (.leaf 0xFD58) (.leaf 0x1885)))) (.node 0x177E6020C9 (.node 0x177CB618BA (.node 0x1779C0F536 (.leaf 0x1D7A6) (.leaf 0x1D796)) (.node 0x177CBE70BF (.leaf 0x1E81E) (.leaf 0x1E820))) (.node 0x17805FC972 (.node 0x177EC127BA (.leaf 0x1E841) (.leaf 0x1E842)) (.node 0x1780A034D9 (.leaf 0x1E85D) (.leaf 0x1D163))))) (nameTree_145)
def nameTree_147 : NameTree := .node 0x1787B2C76D (.node 0x178761711B (.node 0x17875CC768 (.node 0x17875C6C68 (.leaf 0x1E815) (.leaf 0x1E894)) (.node 0x17875F24C9 (.leaf 0x1E898) (.leaf 0x1E817))) (.node 0x17876D71C9 (.node 0x17876A7F16 (.leaf 0x1E814) (.leaf 0x1E818)) (.node 0x1787B22468 (.leaf 0x1E816) (.leaf 0x1E895)))) (.node 0x178862761B (.node 0x17885A7672 (.node 0x1787B3D216 (.leaf 0x1E893) (.leaf 0x1E89A)) (.node 0x17885E7B16 (.leaf 0x1E864) (.leaf 0x1E8B4))) (.node 0x1788AE0936 (.node 0x17886E76C9 (.leaf 0x1E863) (.leaf 0x1E865)) (.node 0x1788B3BFC9 (.leaf 0x1D7A3) (.leaf 0x1E8B2))))
def nameTree_148 : NameTree := .node 0x1787597172 (.node 0x17856B7168 (.node 0x1784C079BA (.node 0x1784B61B1B (.leaf 0x1D7A5) (.node 0x1784BFFD36 (.leaf 0x1E84E) (.leaf 0x1D7A7))) (.node 0x178569D2C4 (.node 0x17855F716D (.leaf 0x1E850) (.leaf 0x1E803)) (.node 0x17856AD816 (.leaf 0x1E805) (.leaf 0x1E8A1)))) (.node 0x1785C6C5C9 (.node 0x1785C06F68 (.node 0x1785BF6872 (.leaf 0x1E8A0) (.leaf 0x1E8A3)) (.node 0x1785C12572 (.leaf 0x1E89F) (.leaf 0x1E8A5))) (.node 0x1786692416 (.node 0x1786601F16 (.leaf 0x1E807) (.leaf 0x1E839)) (.node 0x1786B50336 (.leaf 0x1E83B) (.leaf 0x1D7A0))))) (nameTree_147)
def nameTree_149 : NameTree := .node 0x1791C77A16 (.node 0x1791B515C4 (.node 0x17916FC0C9 (.node 0x1790BFCD16 (.leaf 0x1E8BC) (.leaf 0x1E8BE)) (.node 0x1791707411 (.leaf 0x1E812) (.leaf 0x1E811))) (.node 0x1791BEC816 (.node 0x1791B5C6BF (.leaf 0x1E80B) (.leaf 0x1E810)) (.node 0x1791C66DC9 (.leaf 0x1E80D) (.leaf 0x1E813)))) (.node 0x17962F39BF (.node 0x1793BFCC11 (.node 0x1793B468C9 (.leaf 0x1E80F) (.leaf 0x1E856)) (.node 0x1795EB9E6F (.leaf 0x1E858) (.leaf 0x1F4AC))) (.node 0x17B3126EEA (.node 0x17A4FCFC2A (.leaf 0x1F003) (.leaf 0x1F723)) (.node 0x17B58CB3EF (.leaf 0x2565) (.leaf 0x10402))))
def nameTree_150 : NameTree := .node 0x1790B6C7BF (.node 0x178A601E11 (.node 0x1788B4C81B (.node 0x1788B418BF (.leaf 0x1E8AF) (.node 0x1788B4256D (.leaf 0x1E8AE) (.leaf 0x1E8B0))) (.node 0x1788BC8568 (.node 0x1788BB1568 (.leaf 0x1E866) (.leaf 0x1E8B5)) (.node 0x1788C07BC9 (.leaf 0x1E8B6) (.leaf 0x1E867)))) (.node 0x178DBB72C4 (.node 0x178C0E9F5F (.node 0x178ABE7068 (.leaf 0x1E88F) (.leaf 0x1E891)) (.node 0x178DB67068 (.leaf 0x11CB0) (.leaf 0x1E831))) (.node 0x178E607511 (.node 0x178DBF76C4 (.leaf 0x1E835) (.leaf 0x1E833)) (.node 0x178EBE7116 (.leaf 0x1E847) (.leaf 0x1E849))))) (nameTree_149)
def nameTree_151 : NameTree := .node 0x17FA4F08E6 (.node 0x17D0A896EC (.node 0x17B9E828B6 (.node 0x17B58CBBEF (.leaf 0x10401) (.node 0x17B58CC1EF (.leaf 0x10400) (.leaf 0x10404))) (.node 0x17C613AFB9 (.node 0x17BFF52A3B (.leaf 0x16A63) (.leaf 0x23F9)) (.node 0x17CB1BEB9A (.leaf 0x1011B) (.leaf 0x296D)))) (.node 0x17F4D680C7 (.node 0x17EA9B6D7A (.node 0x17D79E206D (.leaf 0x1E00B) (.leaf 0x1D15D)) (.node 0x17EB13FCDB (.leaf 0x1D8AC) (.leaf 0x11AEE))) (.node 0x17FA44C003 (.node 0x17F507E98A (.leaf 0x11140) (.leaf 0xA678)) (.node 0x17FA4708E6 (.leaf 0x1FD8) (.leaf 0x10B44))))) (.node 0x18297EE2A0 (.node 0x1811F5BE36 (.node 0x17FA945DA9 (.leaf 0x10B50) (.node 0x18101AE4EC (.leaf 0x1E89D) (.leaf 0xABE6))) (.node 0x181B58F1E5 (.node 0x1814C74E3F (.leaf 0xABDB) (.leaf 0x1DA32)) (.node 0x181FBD4254 (.leaf 0x1DA7) (.leaf 0x1F2E)))) (.node 0x183D289469 (.node 0x183B37851C (.node 0x1835BBEFBE (.leaf 0x1DA31) (.leaf 0x1F83E)) (.node 0x183B9BFFE2 (.leaf 0xFB73) (.leaf 0xFB77))) (.node 0x1842418AC5 (.node 0x183E7F6712 (.leaf 0x68C) (.leaf 0x10A7F)) (.node 0x1847B97BC4 (.leaf 0x621) (.leaf 0x4DF0)))))
def nameTree_152 : NameTree := .node 0x186E1838FF (.node 0x186A60499B (.node 0x1866183AFF (.node 0x18651C3CFF (.leaf 0x647) (.leaf 0x698)) (.node 0x18671841FF (.leaf 0x643) (.leaf 0x644))) (.node 0x186C183AFF (.node 0x186B1C3CFF (.leaf 0x16913) (.leaf 0x67E)) (.node 0x186D1C3CFF (.leaf 0x642) (.leaf 0x631)))) (.node 0x18711C3CFF (.node 0x186F1C3CFF (.node 0x186F183CFF (.leaf 0x635) (.leaf 0x637)) (.node 0x186F5A653B (.leaf 0x62A) (.leaf 0x1D73A))) (.node 0x18741C3CFF (.node 0x1872184BFF (.leaf 0x6A4) (.leaf 0x648)) (.node 0x1874CA653B (.leaf 0x64A) (.leaf 0x1D74A))))
def nameTree_153 : NameTree := .node 0x18631C3CFF (.node 0x185F1838FF (.node 0x185A60499B (.node 0x1852143E98 (.leaf 0x239E) (.node 0x1853DFD6F1 (.leaf 0x1FC7) (.leaf 0x1882))) (.node 0x185C86C3D9 (.node 0x185C2042FF (.leaf 0x1693C) (.leaf 0x639)) (.node 0x185D1C3CFF (.leaf 0x1035) (.leaf 0x628)))) (.node 0x18611C3CFF (.node 0x185F2C40FF (.node 0x185F1840FF (.leaf 0x636) (.leaf 0x62F)) (.node 0x185FD547B8 (.leaf 0x68E) (.leaf 0xFCA7))) (.node 0x1862183AFF (.node 0x18619A95A8 (.leaf 0x641) (.leaf 0x1D8CE)) (.node 0x1863183CFF (.leaf 0x6AF) (.leaf 0x62D))))) (nameTree_152)
def nameTree_154 : NameTree := .node 0x18B0C59C70 (.node 0x18ABC9FC59 (.node 0x18A9F3A49B (.node 0x18A903AA9B (.leaf 0x1D870) (.leaf 0x809)) (.node 0x18ABC5F259 (.leaf 0x806) (.leaf 0x1185))) (.node 0x18AD705C9B (.node 0x18ABC9FE63 (.leaf 0x1186) (.leaf 0x1191)) (.node 0x18AEEB329D (.leaf 0x1697F) (.leaf 0x16A68)))) (.node 0x18C59C102F (.node 0x18C1A2D3A3 (.node 0x18BFD71744 (.leaf 0x248) (.leaf 0x1F199)) (.node 0x18C26AF166 (.leaf 0x1E0) (.leaf 0x1D186))) (.node 0x18CF0A4195 (.node 0x18C99DAED5 (.leaf 0xA612) (.leaf 0xFB3B)) (.node 0x18D41C639B (.leaf 0x2183) (.leaf 0xA7A7))))
def nameTree_155 : NameTree := .node 0x18A6AF4355 (.node 0x1891EF979B (.node 0x187DCACB5B (.node 0x187D0A642A (.leaf 0x638) (.node 0x187D5CFD7B (.leaf 0x1D9E9) (.leaf 0x1085D))) (.node 0x1882558940 (.node 0x187E219C41 (.leaf 0x16F90) (.leaf 0x2BF)) (.node 0x188E45EA98 (.leaf 0x1F4B2) (.leaf 0xCBC)))) (.node 0x189E03A49B (.node 0x189B2FCD94 (.node 0x1891F7AA9B (.leaf 0x805) (.leaf 0x801)) (.node 0x189CF7A39B (.leaf 0x1F001) (.leaf 0x80C))) (.node 0x18A1039C9B (.node 0x189F92B9C8 (.leaf 0x80D) (.leaf 0x1D75B)) (.node 0x18A3F7AA9B (.leaf 0x812) (.leaf 0x808))))) (nameTree_154)
def nameTree_156 : NameTree := .node 0x18F25CB09F (.node 0x18F258B09F (.node 0x18F256B09F (.node 0x18F255B89F (.leaf 0xA8B2) (.leaf 0xA885)) (.node 0x18F257B09F (.leaf 0xA899) (.leaf 0xA892))) (.node 0x18F25AB09F (.node 0x18F259B09F (.leaf 0xA8AD) (.leaf 0xA8AA)) (.node 0x18F25BBE9F (.leaf 0xA8A5) (.leaf 0xA890)))) (.node 0x18F261C49F (.node 0x18F25FB09F (.node 0x18F25EB09F (.leaf 0xA8A6) (.leaf 0xA8AC)) (.node 0x18F260B09F (.leaf 0xA8B1) (.leaf 0xA8A1))) (.node 0x18F265B09F (.node 0x18F262B09F (.leaf 0xA887) (.leaf 0xA8AE)) (.node 0x18FBC32C81 (.leaf 0xA8AB) (.leaf 0x1F4EC))))
def nameTree_157 : NameTree := .node 0x18F254B09F (.node 0x18F24DB09F (.node 0x18E51143D3 (.node 0x18D73E56A9 (.leaf 0x111F0) (.node 0x18DC3E5AFD (.leaf 0x1D048) (.leaf 0x194))) (.node 0x18EA608936 (.node 0x18E7B2CDB5 (.leaf 0x2AE3) (.leaf 0x1F3D)) (.node 0x18F0992398 (.leaf 0x1ECE) (.leaf 0x12406)))) (.node 0x18F24FB09F (.node 0x18F24DC49F (.node 0x18F24DB89F (.leaf 0xA883) (.leaf 0xA88E)) (.node 0x18F24EB09F (.leaf 0xA891) (.leaf 0xA8A8))) (.node 0x18F251B49F (.node 0x18F250B09F (.leaf 0xA897) (.leaf 0xA8A3)) (.node 0x18F253B09F (.leaf 0xA88D) (.leaf 0xA894))))) (nameTree_156)
def nameTree_158 : NameTree := .node 0x1918F25B87 (.node 0x190960637B (.node 0x1905326FC9 (.node 0x1900034FB9 (.leaf 0x101A0) (.node 0x1901A5EAD7 (.leaf 0x21E0) (.leaf 0x2085))) (.node 0x190782789D (.node 0x19074C1404 (.leaf 0x1F910) (.leaf 0x1DA24)) (.node 0x1907A4F7D7 (.leaf 0xF17) (.leaf 0x2084)))) (.node 0x191717FC45 (.node 0x190CEAAED2 (.node 0x190CDBAAD2 (.leaf 0x1F7BE) (.leaf 0x4BA)) (.node 0x190F2BE841 (.leaf 0xA696) (.leaf 0x319B))) (.node 0x1918F25187 (.node 0x1918F24D87 (.leaf 0x23AB) (.leaf 0xA882)) (.node 0x1918F25587 (.leaf 0xA88C) (.leaf 0xA884))))) (.node 0x1932C21B26 (.node 0x192948E6A3 (.node 0x1918F26187 (.leaf 0xA88F) (.node 0x1926FE1FA2 (.leaf 0xA886) (.leaf 0x1DA8B))) (.node 0x192C1876D9 (.node 0x19296A717E (.leaf 0xA679) (.leaf 0xABC9)) (.node 0x1932092D30 (.leaf 0x2B86) (.leaf 0x1039F)))) (.node 0x196B3DA5E1 (.node 0x194C8E1AEA (.node 0x1934DD8888 (.leaf 0x10438) (.leaf 0xA6)) (.node 0x19595B9E53 (.leaf 0x2725) (.leaf 0x16838))) (.node 0x196FC77443 (.node 0x196FC77343 (.leaf 0x1E005) (.leaf 0x1F0E1)) (.node 0x196FC77543 (.leaf 0x1F0E2) (.leaf 0x1F0E3)))))
def nameTree_159 : NameTree := .node 0x1991DD35F8 (.node 0x198CE547F8 (.node 0x198ADA48F8 (.node 0x1987DA4AF8 (.leaf 0x2C0A) (.leaf 0x26BF)) (.node 0x198B4B8A14 (.leaf 0x1F195) (.leaf 0x33EE))) (.node 0x198FDD47F8 (.node 0x198FB69032 (.leaf 0x1F14E) (.leaf 0x33EF)) (.node 0x198FE444F8 (.leaf 0x1F1AA) (.leaf 0x1F198)))) (.node 0x199EC83359 (.node 0x19982DDA7E (.node 0x1992E435F8 (.leaf 0x1F1AB) (.leaf 0x1F1AC)) (.node 0x199B4498A3 (.leaf 0x1B28) (.leaf 0x2982))) (.node 0x19B20801FB (.node 0x199FB73E26 (.leaf 0x2251) (.leaf 0x254F)) (.node 0x19C4106341 (.leaf 0x1F887) (.leaf 0x1AAC))))
def nameTree_160 : NameTree := .node 0x1986FA4335 (.node 0x1979484B43 (.node 0x196FC77943 (.node 0x196FC77743 (.leaf 0x1F0E4) (.node 0x196FC77843 (.leaf 0x1F0E5) (.leaf 0x1F0E6))) (.node 0x196FC77B43 (.node 0x196FC77A43 (.leaf 0x1F0E7) (.leaf 0x1F0E8)) (.node 0x1972175CC9 (.leaf 0x1F0E9) (.leaf 0x12414)))) (.node 0x1982115863 (.node 0x197E8E8A5C (.node 0x197D8E865C (.leaf 0x3006) (.leaf 0x12029)) (.node 0x198196865C (.leaf 0x1202B) (.leaf 0x12033))) (.node 0x1984956A5C (.node 0x19838E7C5C (.leaf 0x1D6E) (.leaf 0x12034)) (.node 0x1984D943F8 (.leaf 0x1203E) (.leaf 0x1F1A7))))) (nameTree_159)
def nameTree_161 : NameTree := .node 0x1A0CF11C69 (.node 0x1A0CF10C69 (.node 0x1A0CC873E0 (.node 0x1A0B908430 (.leaf 0x1FD9) (.leaf 0xFBFF)) (.node 0x1A0CF10869 (.leaf 0x109F4) (.leaf 0xFF71))) (.node 0x1A0CF11569 (.node 0x1A0CF11069 (.leaf 0xFF74) (.leaf 0xFF72)) (.node 0x1A0CF11669 (.leaf 0xFF9D) (.leaf 0xFF75)))) (.node 0x1A15E4462B (.node 0x1A10CAC5AD (.node 0x1A1018EE7A (.leaf 0xFF73) (.leaf 0x1D93D)) (.node 0x1A1337959B (.leaf 0x1111E) (.leaf 0x121DF))) (.node 0x1A15F5462B (.node 0x1A15EF462B (.leaf 0x1A5D) (.leaf 0x1A5C)) (.node 0x1A17DBAED2 (.leaf 0x1A5E) (.leaf 0x40B))))
def nameTree_162 : NameTree := .node 0x1A0948A03C (.node 0x1A0022F045 (.node 0x19DD8A567F (.node 0x19D8814C7F (.leaf 0x21CE) (.node 0x19DC7C5F7F (.leaf 0x11651) (.leaf 0x11656))) (.node 0x19EBD93BA9 (.node 0x19E057A96D (.leaf 0x11652) (.leaf 0x16F91)) (.node 0x19F967F24E (.leaf 0x1E882) (.leaf 0x1F829)))) (.node 0x1A0613B288 (.node 0x1A002AF845 (.node 0x1A0022F845 (.leaf 0x102C) (.leaf 0x1032)) (.node 0x1A00370445 (.leaf 0x102E) (.leaf 0x1030))) (.node 0x1A07DBAED2 (.node 0x1A0619B888 (.leaf 0xA88B) (.leaf 0xA889)) (.node 0x1A08FBAD57 (.leaf 0xA692) (.leaf 0x1F39C))))) (nameTree_161)
def nameTree_163 : NameTree := .node 0x1A468E4BF2 (.node 0x1A468E47F2 (.node 0x1A468D4FF2 (.node 0x1A468D4EF2 (.leaf 0x13006) (.leaf 0x13009)) (.node 0x1A468D50F2 (.leaf 0x1300A) (.leaf 0x1300B))) (.node 0x1A468E49F2 (.node 0x1A468E48F2 (.leaf 0x1300C) (.leaf 0x1300D)) (.node 0x1A468E4AF2 (.leaf 0x1300E) (.leaf 0x1300F)))) (.node 0x1A468E4FF2 (.node 0x1A468E4DF2 (.node 0x1A468E4CF2 (.leaf 0x13010) (.leaf 0x13012)) (.node 0x1A468E4EF2 (.leaf 0x13013) (.leaf 0x13014))) (.node 0x1A468F47F2 (.node 0x1A468E50F2 (.leaf 0x13016) (.leaf 0x13017)) (.node 0x1A468F48F2 (.leaf 0x13018) (.leaf 0x13019))))
def nameTree_164 : NameTree := .node 0x1A468D4DF2 (.node 0x1A380A8FDF (.node 0x1A278ACFF8 (.node 0x1A17EAAED2 (.leaf 0xA690) (.node 0x1A270D7917 (.leaf 0xA68E) (.leaf 0x1251A))) (.node 0x1A31D07B34 (.node 0x1A27FCA2B6 (.leaf 0x32C2) (.leaf 0x1B03)) (.node 0x1A3594ED00 (.leaf 0x1F3A0) (.leaf 0x31C)))) (.node 0x1A468D49F2 (.node 0x1A4681CA52 (.node 0x1A3D2C95D9 (.leaf 0x33E2) (.leaf 0x686)) (.node 0x1A468D48F2 (.leaf 0x12462) (.leaf 0x13000))) (.node 0x1A468D4BF2 (.node 0x1A468D4AF2 (.leaf 0x13001) (.leaf 0x13002)) (.node 0x1A468D4CF2 (.leaf 0x13003) (.leaf 0x13004))))) (nameTree_163)
def nameTree_165 : NameTree := .node 0x1A46914CF2 (.node 0x1A469148F2 (.node 0x1A469050F2 (.node 0x1A46904FF2 (.leaf 0x1302A) (.leaf 0x1302B)) (.node 0x1A469147F2 (.leaf 0x1302C) (.leaf 0x1302D))) (.node 0x1A46914AF2 (.node 0x1A469149F2 (.leaf 0x1302F) (.leaf 0x13030)) (.node 0x1A46914BF2 (.leaf 0x13032) (.leaf 0x13034)))) (.node 0x1A469150F2 (.node 0x1A46914EF2 (.node 0x1A46914DF2 (.leaf 0x13035) (.leaf 0x13037)) (.node 0x1A46914FF2 (.leaf 0x13038) (.leaf 0x13039))) (.node 0x1A469248F2 (.node 0x1A469247F2 (.leaf 0x1303A) (.leaf 0x1303B)) (.node 0x1A469249F2 (.leaf 0x1303C) (.leaf 0x1303D))))
def nameTree_166 : NameTree := .node 0x1A46904EF2 (.node 0x1A468F50F2 (.node 0x1A468F4CF2 (.node 0x1A468F4AF2 (.leaf 0x1301A) (.node 0x1A468F4BF2 (.leaf 0x1301B) (.leaf 0x1301C))) (.node 0x1A468F4EF2 (.node 0x1A468F4DF2 (.leaf 0x1301D) (.leaf 0x1301E)) (.node 0x1A468F4FF2 (.leaf 0x1301F) (.leaf 0x13020)))) (.node 0x1A46904AF2 (.node 0x1A469048F2 (.node 0x1A469047F2 (.leaf 0x13021) (.leaf 0x13022)) (.node 0x1A469049F2 (.leaf 0x13023) (.leaf 0x13024))) (.node 0x1A46904CF2 (.node 0x1A46904BF2 (.leaf 0x13026) (.leaf 0x13027)) (.node 0x1A46904DF2 (.leaf 0x13028) (.leaf 0x13029))))) (nameTree_165)
def nameTree_167 : NameTree := .node 0x1A565E0753 (.node 0x1A507B8248 (.node 0x1A469447F2 (.node 0x1A469350F2 (.leaf 0x1304D) (.leaf 0x1304E)) (.node 0x1A47ADBFF5 (.leaf 0x1304F) (.leaf 0x234D))) (.node 0x1A53A2C613 (.node 0x1A511EE9A1 (.leaf 0x1D11A) (.leaf 0x19B)) (.node 0x1A5447EDE2 (.leaf 0x1FA) (.leaf 0x22D8)))) (.node 0x1A651A0984 (.node 0x1A5BD28723 (.node 0x1A590DE18E (.leaf 0x16830) (.leaf 0x1F315)) (.node 0x1A5E74D702 (.leaf 0xFB8E) (.leaf 0x2A73))) (.node 0x1A6B610ED3 (.node 0x1A6B095E23 (.leaf 0x1CF8) (.leaf 0xE5B)) (.node 0x1A6BD67647 (.leaf 0x10B43) (.leaf 0x2612))))
def nameTree_168 : NameTree := .node 0x1A46934FF2 (.node 0x1A469347F2 (.node 0x1A46924DF2 (.node 0x1A46924BF2 (.leaf 0x1303E) (.node 0x1A46924CF2 (.leaf 0x1303F) (.leaf 0x13040))) (.node 0x1A46924FF2 (.node 0x1A46924EF2 (.leaf 0x13041) (.leaf 0x13042)) (.node 0x1A469250F2 (.leaf 0x13043) (.leaf 0x13044)))) (.node 0x1A46934BF2 (.node 0x1A469349F2 (.node 0x1A469348F2 (.leaf 0x13045) (.leaf 0x13046)) (.node 0x1A46934AF2 (.leaf 0x13047) (.leaf 0x13048))) (.node 0x1A46934DF2 (.node 0x1A46934CF2 (.leaf 0x13049) (.leaf 0x1304A)) (.node 0x1A46934EF2 (.leaf 0x1304B) (.leaf 0x1304C))))) (nameTree_167)
def nameTree_169 : NameTree := .node 0x1AAB96F1AA (.node 0x1AAB96DDAA (.node 0x1AA5151B69 (.node 0x1AA471219E (.leaf 0x1D911) (.leaf 0x253C)) (.node 0x1AA9425175 (.leaf 0x4DFD) (.leaf 0x9A2))) (.node 0x1AAB96E5AA (.node 0x1AAB96E1AA (.leaf 0x314F) (.leaf 0x3154)) (.node 0x1AAB96EBAA (.leaf 0x3163) (.leaf 0x3157)))) (.node 0x1AB30508F2 (.node 0x1AB09B83EC (.node 0x1AAF5EA249 (.leaf 0x315C) (.leaf 0x16982)) (.node 0x1AB1A2F627 (.leaf 0x10B67) (.leaf 0x1F798))) (.node 0x1ACA7076A8 (.node 0x1ABC566703 (.leaf 0x27CC) (.leaf 0x1F55)) (.node 0x1ACF5777D7 (.leaf 0x30FB) (.leaf 0x105C))))
def nameTree_170 : NameTree := .node 0x1A9E8EE698 (.node 0x1A80D5DBD3 (.node 0x1A73511F80 (.node 0x1A70F1B36C (.leaf 0x2786) (.node 0x1A72946B5C (.leaf 0x1087F) (.leaf 0x12042))) (.node 0x1A80C9DFD3 (.node 0x1A74775CAC (.leaf 0x2337) (.leaf 0xFD87)) (.node 0x1A80D3D7D3 (.leaf 0x1226F) (.leaf 0x12274)))) (.node 0x1A8E3176AC (.node 0x1A833FAE22 (.node 0x1A80DCC8D3 (.leaf 0x12275) (.leaf 0x12277)) (.node 0x1A869F6A5C (.leaf 0x17D8) (.leaf 0x12054))) (.node 0x1A96804E12 (.node 0x1A94B5DB7D (.leaf 0x1D977) (.leaf 0x12531)) (.node 0x1A97775F7D (.leaf 0xFB20) (.leaf 0x122D4))))) (nameTree_169)
def nameTree_171 : NameTree := .node 0x1B10CAC5AD (.node 0x1AFB5BF078 (.node 0x1AF5F5AF28 (.node 0x1AF0F8BB2F (.leaf 0x4DD5) (.leaf 0x70F)) (.node 0x1AF835D9D5 (.leaf 0x1223B) (.leaf 0x1B1D))) (.node 0x1B0C2D979B (.node 0x1B0598E7FB (.leaf 0x1D5E) (.leaf 0x11004)) (.node 0x1B0D719FAD (.leaf 0x121E3) (.leaf 0x1F89A)))) (.node 0x1B1BD1D264 (.node 0x1B1BD1D064 (.node 0x1B1A681537 (.leaf 0x1110D) (.leaf 0x1F10B)) (.node 0x1B1BD1D164 (.leaf 0xF900) (.leaf 0xF901))) (.node 0x1B1BD1D464 (.node 0x1B1BD1D364 (.leaf 0xF902) (.leaf 0xF903)) (.node 0x1B1BD1D564 (.leaf 0xF904) (.leaf 0xF905))))
def nameTree_172 : NameTree := .node 0x1AF0D1DE05 (.node 0x1ADF1E69FC (.node 0x1AD5F587EB (.node 0x1ACFE44E26 (.leaf 0x105D) (.node 0x1AD570FE33 (.leaf 0x1F3AD) (.leaf 0x1D0A4))) (.node 0x1AD75D77D7 (.node 0x1AD7485F11 (.leaf 0x2C2D) (.leaf 0x18F)) (.node 0x1ADB5C77D7 (.leaf 0x105B) (.leaf 0x105A)))) (.node 0x1AE5330423 (.node 0x1AE3AEB26A (.node 0x1AE132FC46 (.leaf 0x1DB6) (.leaf 0x1EE42)) (.node 0x1AE4627829 (.leaf 0x1E95F) (.leaf 0x21FD))) (.node 0x1AEFB69F08 (.node 0x1AE617CC43 (.leaf 0x2018) (.leaf 0xAAF5)) (.node 0x1AEFCAAB08 (.leaf 0x1204E) (.leaf 0x1204F))))) (nameTree_171)
def nameTree_173 : NameTree := .node 0x16CD50702B (.node 0x14DEAF30BC (.node 0x14DDBE3CBC (.node 0x14DDBA3EBC (.node 0x14DDB928BC (nameTree_116) (nameTree_118)) (.node 0x14DDBC3DBC (nameTree_120) (nameTree_122))) (.node 0x14DEAB39BC (.node 0x14DEA93ABC (nameTree_123) (nameTree_125)) (.node 0x14DEAD31BC (nameTree_127) (nameTree_129)))) (.node 0x14DEBE2BBC (.node 0x14DEBA2DBC (.node 0x14DEB12EBC (nameTree_130) (nameTree_132)) (.node 0x14DEBC2CBC (nameTree_134) (nameTree_136))) (.node 0x15BC5BFE44 (.node 0x153EE8F656 (nameTree_137) (nameTree_139)) (.node 0x1637046564 (nameTree_141) (nameTree_143))))) (.node 0x18FCBBD4C0 (.node 0x17B58CB7EF (.node 0x1784B4FD36 (.node 0x174A556231 (nameTree_144) (nameTree_146)) (.node 0x1788B412C9 (nameTree_148) (nameTree_150))) (.node 0x1875183CFF (.node 0x1848FC10D0 (nameTree_151) (nameTree_153)) (.node 0x18D44A211D (nameTree_155) (nameTree_157)))) (.node 0x1A468F49F2 (.node 0x19D55FC4C1 (.node 0x196FC77643 (nameTree_158) (nameTree_160)) (.node 0x1A17E6AED2 (nameTree_162) (nameTree_164))) (.node 0x1A6C0B6BEC (.node 0x1A46924AF2 (nameTree_166) (nameTree_168)) (.node 0x1ACF577BD7 (nameTree_170) (nameTree_172)))))
def nameTree_174 : NameTree := .node 0x1B1BD2D564 (.node 0x1B1BD1E464 (.node 0x1B1BD1D964 (.node 0x1B1BD1D764 (.leaf 0xF906) (.node 0x1B1BD1D864 (.leaf 0xF907) (.leaf 0xF908))) (.node 0x1B1BD1E264 (.node 0x1B1BD1E164 (.leaf 0xF909) (.leaf 0xF90A)) (.node 0x1B1BD1E364 (.leaf 0xF90B) (.leaf 0xF90C)))) (.node 0x1B1BD2D164 (.node 0x1B1BD1E664 (.node 0x1B1BD1E564 (.leaf 0xF90D) (.leaf 0xF90E)) (.node 0x1B1BD2D064 (.leaf 0xF90F) (.leaf 0xF910))) (.node 0x1B1BD2D364 (.node 0x1B1BD2D264 (.leaf 0xF911) (.leaf 0xF912)) (.node 0x1B1BD2D464 (.leaf 0xF913) (.leaf 0xF914))))) (.node 0x1B1BD2E364 (.node 0x1B1BD2D864 (.node 0x1B1BD2D664 (.leaf 0xF915) (.node 0x1B1BD2D764 (.leaf 0xF916) (.leaf 0xF917))) (.node 0x1B1BD2E164 (.node 0x1B1BD2D964 (.leaf 0xF918) (.leaf 0xF919)) (.node 0x1B1BD2E264 (.leaf 0xF91A) (.leaf 0xF91B)))) (.node 0x1B1BD3D064 (.node 0x1B1BD2E564 (.node 0x1B1BD2E464 (.leaf 0xF91C) (.leaf 0xF91D)) (.node 0x1B1BD2E664 (.leaf 0xF91E) (.leaf 0xF91F))) (.node 0x1B1BD3D264 (.node 0x1B1BD3D164 (.leaf 0xF920) (.leaf 0xF921)) (.node 0x1B1BD3D364 (.leaf 0xF922) (.leaf 0xF923)))))
def nameTree_175 : NameTree := .node 0x1B1BD4E264 (.node 0x1B1BD4D764 (.node 0x1B1BD4D564 (.node 0x1B1BD4D464 (.leaf 0xF933) (.leaf 0xF934)) (.node 0x1B1BD4D664 (.leaf 0xF935) (.leaf 0xF936))) (.node 0x1B1BD4D964 (.node 0x1B1BD4D864 (.leaf 0xF937) (.leaf 0xF938)) (.node 0x1B1BD4E164 (.leaf 0xF939) (.leaf 0xF93A)))) (.node 0x1B1BD4E664 (.node 0x1B1BD4E464 (.node 0x1B1BD4E364 (.leaf 0xF93B) (.leaf 0xF93C)) (.node 0x1B1BD4E564 (.leaf 0xF93D) (.leaf 0xF93E))) (.node 0x1B1BD5D164 (.node 0x1B1BD5D064 (.leaf 0xF93F) (.leaf 0xF940)) (.node 0x1B1BD5D264 (.leaf 0xF941) (.leaf 0xF942))))
def nameTree_176 : NameTree := .node 0x1B1BD4D364 (.node 0x1B1BD3E264 (.node 0x1B1BD3D764 (.node 0x1B1BD3D564 (.leaf 0xF924) (.node 0x1B1BD3D664 (.leaf 0xF925) (.leaf 0xF926))) (.node 0x1B1BD3D964 (.node 0x1B1BD3D864 (.leaf 0xF927) (.leaf 0xF928)) (.node 0x1B1BD3E164 (.leaf 0xF929) (.leaf 0xF92A)))) (.node 0x1B1BD3E664 (.node 0x1B1BD3E464 (.node 0x1B1BD3E364 (.leaf 0xF92B) (.leaf 0xF92C)) (.node 0x1B1BD3E564 (.leaf 0xF92D) (.leaf 0xF92E))) (.node 0x1B1BD4D164 (.node 0x1B1BD4D064 (.leaf 0xF92F) (.leaf 0xF930)) (.node 0x1B1BD4D264 (.leaf 0xF931) (.leaf 0xF932))))) (nameTree_175)
def nameTree_177 : NameTree := .node 0x1B1BD6E164 (.node 0x1B1BD6D664 (.node 0x1B1BD6D464 (.node 0x1B1BD6D364 (.leaf 0xF952) (.leaf 0xF953)) (.node 0x1B1BD6D564 (.leaf 0xF954) (.leaf 0xF955))) (.node 0x1B1BD6D864 (.node 0x1B1BD6D764 (.leaf 0xF956) (.leaf 0xF957)) (.node 0x1B1BD6D964 (.leaf 0xF958) (.leaf 0xF959)))) (.node 0x1B1BD6E564 (.node 0x1B1BD6E364 (.node 0x1B1BD6E264 (.leaf 0xF95A) (.leaf 0xF95B)) (.node 0x1B1BD6E464 (.leaf 0xF95C) (.leaf 0xF95D))) (.node 0x1B1BD7D064 (.node 0x1B1BD6E664 (.leaf 0xF95E) (.leaf 0xF95F)) (.node 0x1B1BD7D164 (.leaf 0xF960) (.leaf 0xF961))))
def nameTree_178 : NameTree := .node 0x1B1BD6D264 (.node 0x1B1BD5E164 (.node 0x1B1BD5D664 (.node 0x1B1BD5D464 (.leaf 0xF943) (.node 0x1B1BD5D564 (.leaf 0xF944) (.leaf 0xF945))) (.node 0x1B1BD5D864 (.node 0x1B1BD5D764 (.leaf 0xF946) (.leaf 0xF947)) (.node 0x1B1BD5D964 (.leaf 0xF948) (.leaf 0xF949)))) (.node 0x1B1BD5E564 (.node 0x1B1BD5E364 (.node 0x1B1BD5E264 (.leaf 0xF94A) (.leaf 0xF94B)) (.node 0x1B1BD5E464 (.leaf 0xF94C) (.leaf 0xF94D))) (.node 0x1B1BD6D064 (.node 0x1B1BD5E664 (.leaf 0xF94E) (.leaf 0xF94F)) (.node 0x1B1BD6D164 (.leaf 0xF950) (.leaf 0xF951))))) (nameTree_177)
def nameTree_179 : NameTree := .node 0x1B1BD8D964 (.node 0x1B1BD8D564 (.node 0x1B1BD8D364 (.node 0x1B1BD8D264 (.leaf 0xF971) (.leaf 0xF972)) (.node 0x1B1BD8D464 (.leaf 0xF973) (.leaf 0xF974))) (.node 0x1B1BD8D764 (.node 0x1B1BD8D664 (.leaf 0xF975) (.leaf 0xF976)) (.node 0x1B1BD8D864 (.leaf 0xF977) (.leaf 0xF978)))) (.node 0x1B1BD8E464 (.node 0x1B1BD8E264 (.node 0x1B1BD8E164 (.leaf 0xF979) (.leaf 0xF97A)) (.node 0x1B1BD8E364 (.leaf 0xF97B) (.leaf 0xF97C))) (.node 0x1B1BD8E664 (.node 0x1B1BD8E564 (.leaf 0xF97D) (.leaf 0xF97E)) (.node 0x1B1BD9D064 (.leaf 0xF97F) (.leaf 0xF980))))
def nameTree_180 : NameTree := .node 0x1B1BD8D164 (.node 0x1B1BD7D964 (.node 0x1B1BD7D564 (.node 0x1B1BD7D364 (.leaf 0xF962) (.node 0x1B1BD7D464 (.leaf 0xF963) (.leaf 0xF964))) (.node 0x1B1BD7D764 (.node 0x1B1BD7D664 (.leaf 0xF965) (.leaf 0xF966)) (.node 0x1B1BD7D864 (.leaf 0xF967) (.leaf 0xF968)))) (.node 0x1B1BD7E464 (.node 0x1B1BD7E264 (.node 0x1B1BD7E164 (.leaf 0xF969) (.leaf 0xF96A)) (.node 0x1B1BD7E364 (.leaf 0xF96B) (.leaf 0xF96C))) (.node 0x1B1BD7E664 (.node 0x1B1BD7E564 (.leaf 0xF96D) (.leaf 0xF96E)) (.node 0x1B1BD8D064 (.leaf 0xF96F) (.leaf 0xF970))))) (nameTree_179)
def nameTree_181 : NameTree := .node 0x1B1BDAD064 (.node 0x1B1BD9D864 (.node 0x1B1BD9D464 (.node 0x1B1BD9D264 (.leaf 0xF981) (.node 0x1B1BD9D364 (.leaf 0xF982) (.leaf 0xF983))) (.node 0x1B1BD9D664 (.node 0x1B1BD9D564 (.leaf 0xF984) (.leaf 0xF985)) (.node 0x1B1BD9D764 (.leaf 0xF986) (.leaf 0xF987)))) (.node 0x1B1BD9E364 (.node 0x1B1BD9E164 (.node 0x1B1BD9D964 (.leaf 0xF988) (.leaf 0xF989)) (.node 0x1B1BD9E264 (.leaf 0xF98A) (.leaf 0xF98B))) (.node 0x1B1BD9E564 (.node 0x1B1BD9E464 (.leaf 0xF98C) (.leaf 0xF98D)) (.node 0x1B1BD9E664 (.leaf 0xF98E) (.leaf 0xF98F))))) (.node 0x1B1BDAD764 (.node 0x1B1BDAD364 (.node 0x1B1BDAD164 (.leaf 0xF990) (.node 0x1B1BDAD264 (.leaf 0xF991) (.leaf 0xF992))) (.node 0x1B1BDAD564 (.node 0x1B1BDAD464 (.leaf 0xF993) (.leaf 0xF994)) (.node 0x1B1BDAD664 (.leaf 0xF995) (.leaf 0xF996)))) (.node 0x1B1BDAE264 (.node 0x1B1BDAD964 (.node 0x1B1BDAD864 (.leaf 0xF997) (.leaf 0xF998)) (.node 0x1B1BDAE164 (.leaf 0xF999) (.leaf 0xF99A))) (.node 0x1B1BDAE464 (.node 0x1B1BDAE364 (.leaf 0xF99B) (.leaf 0xF99C)) (.node 0x1B1BDAE564 (.leaf 0xF99D) (.leaf 0xF99E)))))
def nameTree_182 : NameTree := .node 0x1B1BE3D664 (.node 0x1B1BE3D264 (.node 0x1B1BE3D064 (.node 0x1B1BE2E664 (.leaf 0xF9AE) (.leaf 0xF9AF)) (.node 0x1B1BE3D164 (.leaf 0xF9B0) (.leaf 0xF9B1))) (.node 0x1B1BE3D464 (.node 0x1B1BE3D364 (.leaf 0xF9B2) (.leaf 0xF9B3)) (.node 0x1B1BE3D564 (.leaf 0xF9B4) (.leaf 0xF9B5)))) (.node 0x1B1BE3E164 (.node 0x1B1BE3D864 (.node 0x1B1BE3D764 (.leaf 0xF9B6) (.leaf 0xF9B7)) (.node 0x1B1BE3D964 (.leaf 0xF9B8) (.leaf 0xF9B9))) (.node 0x1B1BE3E364 (.node 0x1B1BE3E264 (.leaf 0xF9BA) (.leaf 0xF9BB)) (.node 0x1B1BE3E464 (.leaf 0xF9BC) (.leaf 0xF9BD))))
def nameTree_183 : NameTree := .node 0x1B1BE2E564 (.node 0x1B1BE2D664 (.node 0x1B1BE2D264 (.node 0x1B1BE2D064 (.leaf 0xF99F) (.node 0x1B1BE2D164 (.leaf 0xF9A0) (.leaf 0xF9A1))) (.node 0x1B1BE2D464 (.node 0x1B1BE2D364 (.leaf 0xF9A2) (.leaf 0xF9A3)) (.node 0x1B1BE2D564 (.leaf 0xF9A4) (.leaf 0xF9A5)))) (.node 0x1B1BE2E164 (.node 0x1B1BE2D864 (.node 0x1B1BE2D764 (.leaf 0xF9A6) (.leaf 0xF9A7)) (.node 0x1B1BE2D964 (.leaf 0xF9A8) (.leaf 0xF9A9))) (.node 0x1B1BE2E364 (.node 0x1B1BE2E264 (.leaf 0xF9AA) (.leaf 0xF9AB)) (.node 0x1B1BE2E464 (.leaf 0xF9AC) (.leaf 0xF9AD))))) (nameTree_182)
def nameTree_184 : NameTree := .node 0x1B1BE5D564 (.node 0x1B1BE5D164 (.node 0x1B1BE4E664 (.node 0x1B1BE4E564 (.leaf 0xF9CD) (.leaf 0xF9CE)) (.node 0x1B1BE5D064 (.leaf 0xF9CF) (.leaf 0xF9D0))) (.node 0x1B1BE5D364 (.node 0x1B1BE5D264 (.leaf 0xF9D1) (.leaf 0xF9D2)) (.node 0x1B1BE5D464 (.leaf 0xF9D3) (.leaf 0xF9D4)))) (.node 0x1B1BE5D964 (.node 0x1B1BE5D764 (.node 0x1B1BE5D664 (.leaf 0xF9D5) (.leaf 0xF9D6)) (.node 0x1B1BE5D864 (.leaf 0xF9D7) (.leaf 0xF9D8))) (.node 0x1B1BE5E264 (.node 0x1B1BE5E164 (.leaf 0xF9D9) (.leaf 0xF9DA)) (.node 0x1B1BE5E364 (.leaf 0xF9DB) (.leaf 0xF9DC))))
def nameTree_185 : NameTree := .node 0x1B1BE4E464 (.node 0x1B1BE4D564 (.node 0x1B1BE4D164 (.node 0x1B1BE3E664 (.leaf 0xF9BE) (.node 0x1B1BE4D064 (.leaf 0xF9BF) (.leaf 0xF9C0))) (.node 0x1B1BE4D364 (.node 0x1B1BE4D264 (.leaf 0xF9C1) (.leaf 0xF9C2)) (.node 0x1B1BE4D464 (.leaf 0xF9C3) (.leaf 0xF9C4)))) (.node 0x1B1BE4D964 (.node 0x1B1BE4D764 (.node 0x1B1BE4D664 (.leaf 0xF9C5) (.leaf 0xF9C6)) (.node 0x1B1BE4D864 (.leaf 0xF9C7) (.leaf 0xF9C8))) (.node 0x1B1BE4E264 (.node 0x1B1BE4E164 (.leaf 0xF9C9) (.leaf 0xF9CA)) (.node 0x1B1BE4E364 (.leaf 0xF9CB) (.leaf 0xF9CC))))) (nameTree_184)
def nameTree_186 : NameTree := .node 0x1B1BE7D464 (.node 0x1B1BE7D064 (.node 0x1B1BE6E564 (.node 0x1B1BE6E464 (.leaf 0xF9EC) (.leaf 0xF9ED)) (.node 0x1B1BE6E664 (.leaf 0xF9EE) (.leaf 0xF9EF))) (.node 0x1B1BE7D264 (.node 0x1B1BE7D164 (.leaf 0xF9F0) (.leaf 0xF9F1)) (.node 0x1B1BE7D364 (.leaf 0xF9F2) (.leaf 0xF9F3)))) (.node 0x1B1BE7D864 (.node 0x1B1BE7D664 (.node 0x1B1BE7D564 (.leaf 0xF9F4) (.leaf 0xF9F5)) (.node 0x1B1BE7D764 (.leaf 0xF9F6) (.leaf 0xF9F7))) (.node 0x1B1BE7E164 (.node 0x1B1BE7D964 (.leaf 0xF9F8) (.leaf 0xF9F9)) (.node 0x1B1BE7E264 (.leaf 0xF9FA) (.leaf 0xF9FB))))
def nameTree_187 : NameTree := .node 0x1B1BE6E364 (.node 0x1B1BE6D464 (.node 0x1B1BE6D064 (.node 0x1B1BE5E564 (.leaf 0xF9DD) (.node 0x1B1BE5E664 (.leaf 0xF9DE) (.leaf 0xF9DF))) (.node 0x1B1BE6D264 (.node 0x1B1BE6D164 (.leaf 0xF9E0) (.leaf 0xF9E1)) (.node 0x1B1BE6D364 (.leaf 0xF9E2) (.leaf 0xF9E3)))) (.node 0x1B1BE6D864 (.node 0x1B1BE6D664 (.node 0x1B1BE6D564 (.leaf 0xF9E4) (.leaf 0xF9E5)) (.node 0x1B1BE6D764 (.leaf 0xF9E6) (.leaf 0xF9E7))) (.node 0x1B1BE6E164 (.node 0x1B1BE6D964 (.leaf 0xF9E8) (.leaf 0xF9E9)) (.node 0x1B1BE6E264 (.leaf 0xF9EA) (.leaf 0xF9EB))))) (nameTree_186)
def nameTree_188 : NameTree := .node 0x1B23D1E264 (.node 0x1B23D1D364 (.node 0x1B1BE7E664 (.node 0x1B1BE7E464 (.leaf 0xF9FC) (.node 0x1B1BE7E564 (.leaf 0xF9FD) (.leaf 0xF9FE))) (.node 0x1B23D1D164 (.node 0x1B23D1D064 (.leaf 0xF9FF) (.leaf 0xFA00)) (.node 0x1B23D1D264 (.leaf 0xFA01) (.leaf 0xFA02)))) (.node 0x1B23D1D764 (.node 0x1B23D1D564 (.node 0x1B23D1D464 (.leaf 0xFA03) (.leaf 0xFA04)) (.node 0x1B23D1D664 (.leaf 0xFA05) (.leaf 0xFA06))) (.node 0x1B23D1D964 (.node 0x1B23D1D864 (.leaf 0xFA07) (.leaf 0xFA08)) (.node 0x1B23D1E164 (.leaf 0xFA09) (.leaf 0xFA0A))))) (.node 0x1B23D2D264 (.node 0x1B23D1E564 (.node 0x1B23D1E364 (.leaf 0xFA0B) (.node 0x1B23D1E464 (.leaf 0xFA0C) (.leaf 0xFA0D))) (.node 0x1B23D2D064 (.node 0x1B23D1E664 (.leaf 0xFA0E) (.leaf 0xFA0F)) (.node 0x1B23D2D164 (.leaf 0xFA10) (.leaf 0xFA11)))) (.node 0x1B23D2D664 (.node 0x1B23D2D464 (.node 0x1B23D2D364 (.leaf 0xFA12) (.leaf 0xFA13)) (.node 0x1B23D2D564 (.leaf 0xFA14) (.leaf 0xFA15))) (.node 0x1B23D2D864 (.node 0x1B23D2D764 (.leaf 0xFA16) (.leaf 0xFA17)) (.node 0x1B23D2D964 (.leaf 0xFA18) (.leaf 0xFA19)))))
def nameTree_189 : NameTree := .node 0x1B23D4D164 (.node 0x1B23D3E464 (.node 0x1B23D3E264 (.node 0x1B23D3E164 (.leaf 0xFA29) (.leaf 0xFA2A)) (.node 0x1B23D3E364 (.leaf 0xFA2B) (.leaf 0xFA2C))) (.node 0x1B23D3E664 (.node 0x1B23D3E564 (.leaf 0xFA2D) (.leaf 0xFA2E)) (.node 0x1B23D4D064 (.leaf 0xFA2F) (.leaf 0xFA30)))) (.node 0x1B23D4D564 (.node 0x1B23D4D364 (.node 0x1B23D4D264 (.leaf 0xFA31) (.leaf 0xFA32)) (.node 0x1B23D4D464 (.leaf 0xFA33) (.leaf 0xFA34))) (.node 0x1B23D4D764 (.node 0x1B23D4D664 (.leaf 0xFA35) (.leaf 0xFA36)) (.node 0x1B23D4D864 (.leaf 0xFA37) (.leaf 0xFA38))))
def nameTree_190 : NameTree := .node 0x1B23D3D964 (.node 0x1B23D3D164 (.node 0x1B23D2E464 (.node 0x1B23D2E264 (.leaf 0xFA1A) (.node 0x1B23D2E364 (.leaf 0xFA1B) (.leaf 0xFA1C))) (.node 0x1B23D2E664 (.node 0x1B23D2E564 (.leaf 0xFA1D) (.leaf 0xFA1E)) (.node 0x1B23D3D064 (.leaf 0xFA1F) (.leaf 0xFA20)))) (.node 0x1B23D3D564 (.node 0x1B23D3D364 (.node 0x1B23D3D264 (.leaf 0xFA21) (.leaf 0xFA22)) (.node 0x1B23D3D464 (.leaf 0xFA23) (.leaf 0xFA24))) (.node 0x1B23D3D764 (.node 0x1B23D3D664 (.leaf 0xFA25) (.leaf 0xFA26)) (.node 0x1B23D3D864 (.leaf 0xFA27) (.leaf 0xFA28))))) (nameTree_189)
def nameTree_191 : NameTree := .node 0x1B23D6D064 (.node 0x1B23D5E364 (.node 0x1B23D5E164 (.node 0x1B23D5D964 (.leaf 0xFA48) (.leaf 0xFA49)) (.node 0x1B23D5E264 (.leaf 0xFA4A) (.leaf 0xFA4B))) (.node 0x1B23D5E564 (.node 0x1B23D5E464 (.leaf 0xFA4C) (.leaf 0xFA4D)) (.node 0x1B23D5E664 (.leaf 0xFA4E) (.leaf 0xFA4F)))) (.node 0x1B23D6D464 (.node 0x1B23D6D264 (.node 0x1B23D6D164 (.leaf 0xFA50) (.leaf 0xFA51)) (.node 0x1B23D6D364 (.leaf 0xFA52) (.leaf 0xFA53))) (.node 0x1B23D6D664 (.node 0x1B23D6D564 (.leaf 0xFA54) (.leaf 0xFA55)) (.node 0x1B23D6D764 (.leaf 0xFA56) (.leaf 0xFA57))))
def nameTree_192 : NameTree := .node 0x1B23D5D864 (.node 0x1B23D5D064 (.node 0x1B23D4E364 (.node 0x1B23D4E164 (.leaf 0xFA39) (.node 0x1B23D4E264 (.leaf 0xFA3A) (.leaf 0xFA3B))) (.node 0x1B23D4E564 (.node 0x1B23D4E464 (.leaf 0xFA3C) (.leaf 0xFA3D)) (.node 0x1B23D4E664 (.leaf 0xFA3E) (.leaf 0xFA3F)))) (.node 0x1B23D5D464 (.node 0x1B23D5D264 (.node 0x1B23D5D164 (.leaf 0xFA40) (.leaf 0xFA41)) (.node 0x1B23D5D364 (.leaf 0xFA42) (.leaf 0xFA43))) (.node 0x1B23D5D664 (.node 0x1B23D5D564 (.leaf 0xFA44) (.leaf 0xFA45)) (.node 0x1B23D5D764 (.leaf 0xFA46) (.leaf 0xFA47))))) (nameTree_191)
def nameTree_193 : NameTree := .node 0x1B23D8D164 (.node 0x1B23D7E264 (.node 0x1B23D7D964 (.node 0x1B23D7D864 (.leaf 0xFA67) (.leaf 0xFA68)) (.node 0x1B23D7E164 (.leaf 0xFA69) (.leaf 0xFA6A))) (.node 0x1B23D7E464 (.node 0x1B23D7E364 (.leaf 0xFA6B) (.leaf 0xFA6C)) (.node 0x1B23D8D064 (.leaf 0xFA6D) (.leaf 0xFA70)))) (.node 0x1B23D8D564 (.node 0x1B23D8D364 (.node 0x1B23D8D264 (.leaf 0xFA71) (.leaf 0xFA72)) (.node 0x1B23D8D464 (.leaf 0xFA73) (.leaf 0xFA74))) (.node 0x1B23D8D764 (.node 0x1B23D8D664 (.leaf 0xFA75) (.leaf 0xFA76)) (.node 0x1B23D8D864 (.leaf 0xFA77) (.leaf 0xFA78))))
def nameTree_194 : NameTree := .node 0x1B23D7D764 (.node 0x1B23D6E664 (.node 0x1B23D6E264 (.node 0x1B23D6D964 (.leaf 0xFA58) (.node 0x1B23D6E164 (.leaf 0xFA59) (.leaf 0xFA5A))) (.node 0x1B23D6E464 (.node 0x1B23D6E364 (.leaf 0xFA5B) (.leaf 0xFA5C)) (.node 0x1B23D6E564 (.leaf 0xFA5D) (.leaf 0xFA5E)))) (.node 0x1B23D7D364 (.node 0x1B23D7D164 (.node 0x1B23D7D064 (.leaf 0xFA5F) (.leaf 0xFA60)) (.node 0x1B23D7D264 (.leaf 0xFA61) (.leaf 0xFA62))) (.node 0x1B23D7D564 (.node 0x1B23D7D464 (.leaf 0xFA63) (.leaf 0xFA64)) (.node 0x1B23D7D664 (.leaf 0xFA65) (.leaf 0xFA66))))) (nameTree_193)
def nameTree_195 : NameTree := .node 0x1B23D9D864 (.node 0x1B23D9D064 (.node 0x1B23D8E364 (.node 0x1B23D8E164 (.leaf 0xFA79) (.node 0x1B23D8E264 (.leaf 0xFA7A) (.leaf 0xFA7B))) (.node 0x1B23D8E564 (.node 0x1B23D8E464 (.leaf 0xFA7C) (.leaf 0xFA7D)) (.node 0x1B23D8E664 (.leaf 0xFA7E) (.leaf 0xFA7F)))) (.node 0x1B23D9D464 (.node 0x1B23D9D264 (.node 0x1B23D9D164 (.leaf 0xFA80) (.leaf 0xFA81)) (.node 0x1B23D9D364 (.leaf 0xFA82) (.leaf 0xFA83))) (.node 0x1B23D9D664 (.node 0x1B23D9D564 (.leaf 0xFA84) (.leaf 0xFA85)) (.node 0x1B23D9D764 (.leaf 0xFA86) (.leaf 0xFA87))))) (.node 0x1B23D9E664 (.node 0x1B23D9E264 (.node 0x1B23D9D964 (.leaf 0xFA88) (.node 0x1B23D9E164 (.leaf 0xFA89) (.leaf 0xFA8A))) (.node 0x1B23D9E464 (.node 0x1B23D9E364 (.leaf 0xFA8B) (.leaf 0xFA8C)) (.node 0x1B23D9E564 (.leaf 0xFA8D) (.leaf 0xFA8E)))) (.node 0x1B23DAD364 (.node 0x1B23DAD164 (.node 0x1B23DAD064 (.leaf 0xFA8F) (.leaf 0xFA90)) (.node 0x1B23DAD264 (.leaf 0xFA91) (.leaf 0xFA92))) (.node 0x1B23DAD564 (.node 0x1B23DAD464 (.leaf 0xFA93) (.leaf 0xFA94)) (.node 0x1B23DAD664 (.leaf 0xFA95) (.leaf 0xFA96)))))
def nameTree_196 : NameTree := .node 0x1B23E2E564 (.node 0x1B23E2E164 (.node 0x1B23E2D864 (.node 0x1B23E2D764 (.leaf 0xFAA6) (.leaf 0xFAA7)) (.node 0x1B23E2D964 (.leaf 0xFAA8) (.leaf 0xFAA9))) (.node 0x1B23E2E364 (.node 0x1B23E2E264 (.leaf 0xFAAA) (.leaf 0xFAAB)) (.node 0x1B23E2E464 (.leaf 0xFAAC) (.leaf 0xFAAD)))) (.node 0x1B23E3D264 (.node 0x1B23E3D064 (.node 0x1B23E2E664 (.leaf 0xFAAE) (.leaf 0xFAAF)) (.node 0x1B23E3D164 (.leaf 0xFAB0) (.leaf 0xFAB1))) (.node 0x1B23E3D464 (.node 0x1B23E3D364 (.leaf 0xFAB2) (.leaf 0xFAB3)) (.node 0x1B23E3D564 (.leaf 0xFAB4) (.leaf 0xFAB5))))
def nameTree_197 : NameTree := .node 0x1B23E2D664 (.node 0x1B23DAE564 (.node 0x1B23DAE164 (.node 0x1B23DAD864 (.leaf 0xFA97) (.node 0x1B23DAD964 (.leaf 0xFA98) (.leaf 0xFA99))) (.node 0x1B23DAE364 (.node 0x1B23DAE264 (.leaf 0xFA9A) (.leaf 0xFA9B)) (.node 0x1B23DAE464 (.leaf 0xFA9C) (.leaf 0xFA9D)))) (.node 0x1B23E2D264 (.node 0x1B23E2D064 (.node 0x1B23DAE664 (.leaf 0xFA9E) (.leaf 0xFA9F)) (.node 0x1B23E2D164 (.leaf 0xFAA0) (.leaf 0xFAA1))) (.node 0x1B23E2D464 (.node 0x1B23E2D364 (.leaf 0xFAA2) (.leaf 0xFAA3)) (.node 0x1B23E2D564 (.leaf 0xFAA4) (.leaf 0xFAA5))))) (nameTree_196)
def nameTree_198 : NameTree := .node 0x1B23E4E464 (.node 0x1B23E4D964 (.node 0x1B23E4D764 (.node 0x1B23E4D664 (.leaf 0xFAC5) (.leaf 0xFAC6)) (.node 0x1B23E4D864 (.leaf 0xFAC7) (.leaf 0xFAC8))) (.node 0x1B23E4E264 (.node 0x1B23E4E164 (.leaf 0xFAC9) (.leaf 0xFACA)) (.node 0x1B23E4E364 (.leaf 0xFACB) (.leaf 0xFACC)))) (.node 0x1B23E5D164 (.node 0x1B23E4E664 (.node 0x1B23E4E564 (.leaf 0xFACD) (.leaf 0xFACE)) (.node 0x1B23E5D064 (.leaf 0xFACF) (.leaf 0xFAD0))) (.node 0x1B23E5D364 (.node 0x1B23E5D264 (.leaf 0xFAD1) (.leaf 0xFAD2)) (.node 0x1B23E5D464 (.leaf 0xFAD3) (.leaf 0xFAD4))))
def nameTree_199 : NameTree := .node 0x1B23E4D564 (.node 0x1B23E3E464 (.node 0x1B23E3D964 (.node 0x1B23E3D764 (.leaf 0xFAB6) (.node 0x1B23E3D864 (.leaf 0xFAB7) (.leaf 0xFAB8))) (.node 0x1B23E3E264 (.node 0x1B23E3E164 (.leaf 0xFAB9) (.leaf 0xFABA)) (.node 0x1B23E3E364 (.leaf 0xFABB) (.leaf 0xFABC)))) (.node 0x1B23E4D164 (.node 0x1B23E3E664 (.node 0x1B23E3E564 (.leaf 0xFABD) (.leaf 0xFABE)) (.node 0x1B23E4D064 (.leaf 0xFABF) (.leaf 0xFAC0))) (.node 0x1B23E4D364 (.node 0x1B23E4D264 (.leaf 0xFAC1) (.leaf 0xFAC2)) (.node 0x1B23E4D464 (.leaf 0xFAC3) (.leaf 0xFAC4))))) (nameTree_198)
def nameTree_200 : NameTree := .node 0x1B468D4FF2 (.node 0x1B468D4BF2 (.node 0x1B468D49F2 (.node 0x1B468D48F2 (.leaf 0x2921) (.leaf 0x13050)) (.node 0x1B468D4AF2 (.leaf 0x13051) (.leaf 0x13052))) (.node 0x1B468D4DF2 (.node 0x1B468D4CF2 (.leaf 0x13053) (.leaf 0x13054)) (.node 0x1B468D4EF2 (.leaf 0x13056) (.leaf 0x13057)))) (.node 0x1B56339C1F (.node 0x1B49C713F6 (.node 0x1B468D50F2 (.leaf 0x13058) (.leaf 0x13059)) (.node 0x1B51E67624 (.leaf 0x25B2) (.leaf 0x1FDE))) (.node 0x1B58E58812 (.node 0x1B56E70E4A (.leaf 0xFB87) (.leaf 0x2E35)) (.node 0x1B665328DF (.leaf 0x10E73) (.leaf 0x240D))))
def nameTree_201 : NameTree := .node 0x1B44B4D199 (.node 0x1B2D0D99C6 (.node 0x1B23E5D864 (.node 0x1B23E5D664 (.leaf 0xFAD5) (.node 0x1B23E5D764 (.leaf 0xFAD6) (.leaf 0xFAD7))) (.node 0x1B2A5C697E (.node 0x1B23E5D964 (.leaf 0xFAD8) (.leaf 0xFAD9)) (.node 0x1B2C79D18D (.leaf 0xABD0) (.leaf 0x2233)))) (.node 0x1B3A08BD85 (.node 0x1B2FB77B5B (.node 0x1B2D5766E6 (.leaf 0x33E7) (.leaf 0x2383)) (.node 0x1B31026317 (.leaf 0xFDC6) (.leaf 0x12200))) (.node 0x1B3FF13DC4 (.node 0x1B3C916308 (.leaf 0x1D0E7) (.leaf 0x149)) (.node 0x1B43107EE4 (.leaf 0x23E7) (.leaf 0x6BF))))) (nameTree_200)
def nameTree_202 : NameTree := .node 0x1BCD9BA3C8 (.node 0x1B8C897135 (.node 0x1B70F8D89F (.node 0x1B6B5D27D3 (.leaf 0x10B4B) (.node 0x1B70CD1A2D (.leaf 0x10B4E) (.leaf 0x1D983))) (.node 0x1B89828FAB (.node 0x1B769F43D9 (.leaf 0x3AF) (.leaf 0x1D141)) (.node 0x1B8C443D47 (.leaf 0x27A5) (.leaf 0x1D971)))) (.node 0x1BA23B77EF (.node 0x1B95A2F067 (.node 0x1B8F5E09BE (.leaf 0x247C) (.leaf 0x4DCF)) (.node 0x1B9E199708 (.leaf 0xFCDD) (.leaf 0x1D01F))) (.node 0x1BAA5CF7B3 (.node 0x1BA689DC36 (.leaf 0x8A9) (.leaf 0x1B49)) (.node 0x1BB48FA9B2 (.leaf 0x20E7) (.leaf 0xD7E7))))) (.node 0x1BEB8A2EDD (.node 0x1BE07F7FAE (.node 0x1BCD9D2F6D (.leaf 0x2E84) (.node 0x1BCE28EC4F (.leaf 0x1D13B) (.leaf 0x121A9))) (.node 0x1BE97E36DD (.node 0x1BE42EF746 (.leaf 0x2193) (.leaf 0x1EE57)) (.node 0x1BEB0910DA (.leaf 0x1D6D8) (.leaf 0x10179)))) (.node 0x1BF87E3CDD (.node 0x1BF67E36DD (.node 0x1BF19AAF0D (.leaf 0x1D6C8) (.leaf 0x127)) (.node 0x1BF68936DD (.leaf 0x1D6D7) (.leaf 0x1D6D9))) (.node 0x1BFA7742DD (.node 0x1BF9BEEC19 (.leaf 0x1D6D2) (.leaf 0x1159)) (.node 0x1BFCD5888F (.leaf 0x1D6D5) (.leaf 0x12310)))))
def nameTree_203 : NameTree := .node 0x1C43108DD4 (.node 0x1C3D2C92CA (.node 0x1C3A33CFD5 (.node 0x1C36DA1706 (.leaf 0x115BD) (.leaf 0x2A80)) (.node 0x1C3D2C8FBB (.leaf 0x1B0D) (.leaf 0x680))) (.node 0x1C3D2C95D9 (.node 0x1C3D2C947D (.leaf 0x6A9) (.leaf 0x6A6)) (.node 0x1C3E48849B (.leaf 0x67F) (.leaf 0xA7A9)))) (.node 0x1C468D4BF2 (.node 0x1C468D49F2 (.node 0x1C468D48F2 (.leaf 0x2548) (.leaf 0x1305A)) (.node 0x1C468D4AF2 (.leaf 0x1305B) (.leaf 0x1305F))) (.node 0x1C468D4DF2 (.node 0x1C468D4CF2 (.leaf 0x13060) (.leaf 0x13061)) (.node 0x1C468D4EF2 (.leaf 0x13062) (.leaf 0x13063))))
def nameTree_204 : NameTree := .node 0x1C3321E026 (.node 0x1C19FB0AA3 (.node 0x1C0E97C2F7 (.node 0x1C0CCAC5AD (.leaf 0x1689D) (.node 0x1C0DACF0AD (.leaf 0x11113) (.leaf 0xFEB1))) (.node 0x1C11D77E38 (.node 0x1C10CAC5AD (.leaf 0x1CD) (.leaf 0x11119)) (.node 0x1C19C13F41 (.leaf 0xFD2) (.leaf 0x3194)))) (.node 0x1C1A0F1EA3 (.node 0x1C19FB1EA3 (.node 0x1C19FB12A3 (.leaf 0x110B0) (.leaf 0x110B6)) (.node 0x1C1A0312A3 (.leaf 0x110B8) (.leaf 0x110B2))) (.node 0x1C2BDED206 (.node 0x1C297B9531 (.leaf 0x110B4) (.leaf 0xEC9)) (.node 0x1C30E0234B (.leaf 0x2686) (.leaf 0x120CA))))) (nameTree_203)
def nameTree_205 : NameTree := .node 0x1C5676C09D (.node 0x1C4A42BDA4 (.node 0x1C47F2167B (.node 0x1C468F4BF2 (.leaf 0x13074) (.leaf 0x13075)) (.node 0x1C49B9C2F7 (.leaf 0x1F000) (.leaf 0x10C))) (.node 0x1C4C8C3A60 (.node 0x1C4B7C02CF (.leaf 0xAB4E) (.leaf 0x6E1)) (.node 0x1C4CE9915E (.leaf 0x26C) (.leaf 0x1D83B)))) (.node 0x1C674AC2F7 (.node 0x1C58FD7072 (.node 0x1C57A04A46 (.leaf 0x33AF) (.leaf 0x2E07)) (.node 0x1C6122F5C1 (.leaf 0x220B) (.leaf 0x1DB))) (.node 0x1C6BCE4528 (.node 0x1C6A91FA1F (.leaf 0x10E) (.leaf 0x2284)) (.node 0x1C72946B5C (.leaf 0x10176) (.leaf 0x12374))))
def nameTree_206 : NameTree := .node 0x1C468F4AF2 (.node 0x1C468E4CF2 (.node 0x1C468E48F2 (.node 0x1C468D50F2 (.leaf 0x13064) (.node 0x1C468E47F2 (.leaf 0x13065) (.leaf 0x13066))) (.node 0x1C468E4AF2 (.node 0x1C468E49F2 (.leaf 0x13068) (.leaf 0x13069)) (.node 0x1C468E4BF2 (.leaf 0x1306A) (.leaf 0x1306B)))) (.node 0x1C468E50F2 (.node 0x1C468E4EF2 (.node 0x1C468E4DF2 (.leaf 0x1306C) (.leaf 0x1306D)) (.node 0x1C468E4FF2 (.leaf 0x1306E) (.leaf 0x1306F))) (.node 0x1C468F48F2 (.node 0x1C468F47F2 (.leaf 0x13070) (.leaf 0x13071)) (.node 0x1C468F49F2 (.leaf 0x13072) (.leaf 0x13073))))) (nameTree_205)
def nameTree_207 : NameTree := .node 0x1CC8117341 (.node 0x1CBB86DAFC (.node 0x1CB5BB6329 (.node 0x1CB1436329 (.leaf 0x1F68D) (.leaf 0x1149)) (.node 0x1CB71B6329 (.leaf 0x114B) (.leaf 0x114A))) (.node 0x1CC203B520 (.node 0x1CBFFDC2F7 (.leaf 0x1201E) (.leaf 0x1E6)) (.node 0x1CC4036A41 (.leaf 0x2A54) (.leaf 0x1AA8)))) (.node 0x1CDAABE73B (.node 0x1CD1C5DD14 (.node 0x1CCE4E0785 (.leaf 0x1AA3) (.leaf 0x1F062)) (.node 0x1CD4C1CAA6 (.leaf 0x11112) (.leaf 0x11C6C))) (.node 0x1CDCCD73B7 (.node 0x1CDB9501AD (.leaf 0x17F1) (.leaf 0x496)) (.node 0x1CDD50BBC4 (.leaf 0x1F5A6) (.leaf 0x16F92))))
def nameTree_208 : NameTree := .node 0x1CAF07E161 (.node 0x1C869B6B5C (.node 0x1C8028073B (.node 0x1C7AA0805C (.leaf 0x12076) (.node 0x1C7CA8630C (.leaf 0x12079) (.leaf 0x1D96F))) (.node 0x1C84DBC2F7 (.node 0x1C81FCCD23 (.leaf 0x1F57E) (.leaf 0x1F27)) (.node 0x1C868F6A5C (.leaf 0x11A) (.leaf 0x12080)))) (.node 0x1C9CB975B1 (.node 0x1C869F6A5C (.node 0x1C869B6C5C (.leaf 0x12085) (.leaf 0x12088)) (.node 0x1C9C8091FA (.leaf 0x12089) (.leaf 0x1F0DC))) (.node 0x1CA657AF75 (.node 0x1C9CD727C2 (.leaf 0xA856) (.leaf 0x32C7)) (.node 0x1CAAB8A8A6 (.leaf 0x1D0B8) (.leaf 0xFD1))))) (nameTree_207)
def nameTree_209 : NameTree := .node 0x1D146A61E6 (.node 0x1CFA73E227 (.node 0x1CED342537 (.node 0x1CEA4C33A6 (.leaf 0x21E) (.node 0x1CEB81CD00 (.leaf 0x69B) (.leaf 0x20E8))) (.node 0x1CF0320EE9 (.node 0x1CED967342 (.leaf 0xFF1F) (.leaf 0x2C91)) (.node 0x1CF8A2547E (.leaf 0x25B0) (.leaf 0x2E90)))) (.node 0x1D00869AB8 (.node 0x1D0074A6B8 (.node 0x1CFB1FC2F7 (.leaf 0x1BC86) (.leaf 0x1CF)) (.node 0x1D007AA6B8 (.leaf 0x1F260) (.leaf 0x1F261))) (.node 0x1D0743CBE7 (.node 0x1D04006457 (.leaf 0x1F263) (.leaf 0x2272)) (.node 0x1D0E71116F (.leaf 0xA70E) (.leaf 0x2A09))))) (.node 0x1D3E718F81 (.node 0x1D2E6495C5 (.node 0x1D267296C5 (.leaf 0x266C) (.node 0x1D2B934245 (.leaf 0xAADB) (.leaf 0x8FE))) (.node 0x1D35771B19 (.node 0x1D33440602 (.leaf 0xAADD) (.leaf 0x1F5EE)) (.node 0x1D3641C2F7 (.leaf 0xDD3) (.leaf 0x1E8)))) (.node 0x1D441B47C0 (.node 0x1D43480BE2 (.node 0x1D40420D32 (.leaf 0xFE8B) (.leaf 0x1D160)) (.node 0x1D4385650F (.leaf 0x1EE80) (.leaf 0x271C))) (.node 0x1D4633BCF9 (.node 0x1D4571E693 (.leaf 0xFBDD) (.leaf 0x2AC5)) (.node 0x1D466FA4A4 (.leaf 0x1F357) (.leaf 0x861)))))
def nameTree_210 : NameTree := .node 0x1D468F4AF2 (.node 0x1D468E50F2 (.node 0x1D468E4EF2 (.node 0x1D468E4DF2 (.leaf 0x13085) (.leaf 0x13086)) (.node 0x1D468E4FF2 (.leaf 0x13087) (.leaf 0x13088))) (.node 0x1D468F48F2 (.node 0x1D468F47F2 (.leaf 0x13089) (.leaf 0x1308A)) (.node 0x1D468F49F2 (.leaf 0x1308B) (.leaf 0x1308C)))) (.node 0x1D468F4EF2 (.node 0x1D468F4CF2 (.node 0x1D468F4BF2 (.leaf 0x1308D) (.leaf 0x1308E)) (.node 0x1D468F4DF2 (.leaf 0x1308F) (.leaf 0x13090))) (.node 0x1D468F50F2 (.node 0x1D468F4FF2 (.leaf 0x13091) (.leaf 0x13093)) (.node 0x1D469047F2 (.leaf 0x13094) (.leaf 0x13095))))
def nameTree_211 : NameTree := .node 0x1D468E4CF2 (.node 0x1D468D4EF2 (.node 0x1D468D4AF2 (.node 0x1D468D48F2 (.leaf 0x867) (.node 0x1D468D49F2 (.leaf 0x13076) (.leaf 0x13077))) (.node 0x1D468D4CF2 (.node 0x1D468D4BF2 (.leaf 0x13078) (.leaf 0x13079)) (.node 0x1D468D4DF2 (.leaf 0x1307A) (.leaf 0x1307B)))) (.node 0x1D468E48F2 (.node 0x1D468D50F2 (.node 0x1D468D4FF2 (.leaf 0x1307C) (.leaf 0x1307D)) (.node 0x1D468E47F2 (.leaf 0x1307F) (.leaf 0x13080))) (.node 0x1D468E4AF2 (.node 0x1D468E49F2 (.leaf 0x13081) (.leaf 0x13082)) (.node 0x1D468E4BF2 (.leaf 0x13083) (.leaf 0x13084))))) (nameTree_210)
def nameTree_212 : NameTree := .node 0x1D46924BF2 (.node 0x1D469247F2 (.node 0x1D46914FF2 (.node 0x1D46914EF2 (.leaf 0x130A7) (.leaf 0x130A9)) (.node 0x1D469150F2 (.leaf 0x130AA) (.leaf 0x130AC))) (.node 0x1D469249F2 (.node 0x1D469248F2 (.leaf 0x130AD) (.leaf 0x130B7)) (.node 0x1D46924AF2 (.leaf 0x130B8) (.leaf 0x130BA)))) (.node 0x1D46924FF2 (.node 0x1D46924DF2 (.node 0x1D46924CF2 (.leaf 0x130BB) (.leaf 0x130BD)) (.node 0x1D46924EF2 (.leaf 0x130BE) (.leaf 0x130BF))) (.node 0x1D469347F2 (.node 0x1D469250F2 (.leaf 0x130C0) (.leaf 0x130C1)) (.node 0x1D469348F2 (.leaf 0x130C2) (.leaf 0x130C3))))
def nameTree_213 : NameTree := .node 0x1D46914DF2 (.node 0x1D46904FF2 (.node 0x1D46904BF2 (.node 0x1D469049F2 (.leaf 0x13096) (.node 0x1D46904AF2 (.leaf 0x13098) (.leaf 0x13099))) (.node 0x1D46904DF2 (.node 0x1D46904CF2 (.leaf 0x1309A) (.leaf 0x1309C)) (.node 0x1D46904EF2 (.leaf 0x1309D) (.leaf 0x1309E)))) (.node 0x1D469149F2 (.node 0x1D469147F2 (.node 0x1D469050F2 (.leaf 0x1309F) (.leaf 0x130A0)) (.node 0x1D469148F2 (.leaf 0x130A1) (.leaf 0x130A2))) (.node 0x1D46914BF2 (.node 0x1D46914AF2 (.leaf 0x130A3) (.leaf 0x130A4)) (.node 0x1D46914CF2 (.leaf 0x130A5) (.leaf 0x130A6))))) (nameTree_212)
def nameTree_214 : NameTree := .node 0x1D5D7EBA60 (.node 0x1D5BA5AA60 (.node 0x1D57FD2129 (.node 0x1D53D2C2F7 (.leaf 0x120B4) (.leaf 0x13D)) (.node 0x1D5B881960 (.leaf 0x251B) (.leaf 0x255))) (.node 0x1D5C923260 (.node 0x1D5C00C23E (.leaf 0x221) (.leaf 0x1D895)) (.node 0x1D5CCD5460 (.leaf 0x234) (.leaf 0x235)))) (.node 0x1D5ED704C2 (.node 0x1D5E302060 (.node 0x1D5DB9DC60 (.leaf 0x236) (.leaf 0x2C74)) (.node 0x1D5ED700C2 (.leaf 0x291) (.leaf 0xE30))) (.node 0x1D5ED70EC2 (.node 0x1D5ED708C2 (.leaf 0xE40) (.leaf 0xE34)) (.node 0x1D5ED714C2 (.leaf 0xE42) (.leaf 0xE38))))
def nameTree_215 : NameTree := .node 0x1D50E5BE5E (.node 0x1D4F1DC535 (.node 0x1D46934CF2 (.node 0x1D46934AF2 (.leaf 0x130C4) (.node 0x1D46934BF2 (.leaf 0x130C5) (.leaf 0x130C6))) (.node 0x1D46934EF2 (.node 0x1D46934DF2 (.leaf 0x130C7) (.leaf 0x130C8)) (.node 0x1D4CDE9CCF (.leaf 0x130C9) (.leaf 0xFBB4)))) (.node 0x1D50DCC35E (.node 0x1D50D8BB5E (.node 0x1D50D1C85E (.leaf 0xD7F8) (.leaf 0x120A5)) (.node 0x1D50DCBB5E (.leaf 0x120A9) (.leaf 0x120AF))) (.node 0x1D50E3CF5E (.node 0x1D50DCCF5E (.leaf 0x120B1) (.leaf 0x120B2)) (.node 0x1D50E5AC5E (.leaf 0x124B5) (.leaf 0x120B3))))) (nameTree_214)
def nameTree_216 : NameTree := .node 0x1D8392865C (.node 0x1D78968A5C (.node 0x1D6C3C9780 (.node 0x1D680B6343 (.leaf 0x1EA6) (.node 0x1D6AFC14C2 (.leaf 0x2782) (.leaf 0x2A3E))) (.node 0x1D6EF33B2D (.node 0x1D6EEF372D (.leaf 0x1E013) (.leaf 0xAB2B)) (.node 0x1D7596865C (.leaf 0xAB2C) (.leaf 0x12094)))) (.node 0x1D7B495CAC (.node 0x1D7A462E60 (.node 0x1D799786B1 (.leaf 0x12095) (.leaf 0x2AF7)) (.node 0x1D7B10A5DF (.leaf 0x12425) (.leaf 0x1D820))) (.node 0x1D8117B868 (.node 0x1D7EC5C15C (.leaf 0xDEB) (.leaf 0xFD1A)) (.node 0x1D814869AC (.leaf 0x1F6EB) (.leaf 0xDEA))))) (.node 0x1D8B92865C (.node 0x1D84956A5C (.node 0x1D83B8FDAF (.leaf 0x1209E) (.node 0x1D83F33B2D (.leaf 0x108E3) (.leaf 0x1386))) (.node 0x1D88F33540 (.node 0x1D86A0D977 (.leaf 0x120A0) (.leaf 0xCE6)) (.node 0x1D897162E8 (.leaf 0x820) (.leaf 0x1149A)))) (.node 0x1DAC9783EC (.node 0x1D8EF4C2F7 (.node 0x1D8E58D95C (.leaf 0x120A1) (.leaf 0x10165)) (.node 0x1DAC85C2F7 (.leaf 0x147) (.leaf 0x1D1))) (.node 0x1DAFF965AC (.node 0x1DADDE1966 (.leaf 0x10B6A) (.leaf 0x2C59)) (.node 0x1DBDF1F74D (.leaf 0x2756) (.leaf 0x7C7)))))
def nameTree_217 : NameTree := .node 0x1E13E3D487 (.node 0x1E0538C2F7 (.node 0x1DF6D60765 (.node 0x1DF0AD184C (.leaf 0x1D00C) (.leaf 0x10AC7)) (.node 0x1E01C05030 (.leaf 0xFB4B) (.leaf 0xFD21))) (.node 0x1E116B8A31 (.node 0x1E062038B2 (.leaf 0x158) (.leaf 0x1F06)) (.node 0x1E119CB949 (.leaf 0x1F5D) (.leaf 0xC1)))) (.node 0x1E13E3D887 (.node 0x1E13E3D687 (.node 0x1E13E3D587 (.leaf 0xE0041) (.leaf 0xE0042)) (.node 0x1E13E3D787 (.leaf 0xE0043) (.leaf 0xE0044))) (.node 0x1E13E3DA87 (.node 0x1E13E3D987 (.leaf 0xE0045) (.leaf 0xE0046)) (.node 0x1E13E3DB87 (.leaf 0xE0047) (.leaf 0xE0048))))
def nameTree_218 : NameTree := .node 0x1DEDD34379 (.node 0x1DDCA041D1 (.node 0x1DD1477F10 (.node 0x1DCD893093 (.leaf 0x963) (.node 0x1DCE6A41B5 (.leaf 0x944) (.leaf 0x2967))) (.node 0x1DDA15FAFA (.node 0x1DD41B4C8B (.leaf 0x1F5C7) (.leaf 0x1D06C)) (.node 0x1DDC7F52B9 (.leaf 0xFF5B) (.leaf 0x1B0C)))) (.node 0x1DE6C873A2 (.node 0x1DE505DE4D (.node 0x1DE2C6D813 (.leaf 0x1D8AE) (.leaf 0x1F600)) (.node 0x1DE6B10E4C (.leaf 0x1F4D4) (.leaf 0x10AD6))) (.node 0x1DE9C1D14C (.node 0x1DE7C10F4C (.leaf 0x1DA46) (.leaf 0x10AD7)) (.node 0x1DEDAD184C (.leaf 0x110BA) (.leaf 0x10AE4))))) (nameTree_217)
def nameTree_219 : NameTree := .node 0x1E336ECD0E (.node 0x1E2756750F (.node 0x1E13E3ED87 (.node 0x1E13E3EC87 (.leaf 0xE0058) (.leaf 0xE0059)) (.node 0x1E22C9C2F7 (.leaf 0xE005A) (.leaf 0x160))) (.node 0x1E2D28D3A0 (.node 0x1E277A5F90 (.leaf 0x7EF) (.leaf 0x26BD)) (.node 0x1E3327E0A0 (.leaf 0x11735) (.leaf 0x11734)))) (.node 0x1E3B1D329D (.node 0x1E366BBE23 (.node 0x1E3388C6F6 (.leaf 0x201D) (.leaf 0x4E2)) (.node 0x1E376B9E21 (.leaf 0x109C4) (.leaf 0x1D949))) (.node 0x1E3C6ACB23 (.node 0x1E3B20E045 (.leaf 0x1F4F3) (.leaf 0x1BAB)) (.node 0x1E405AC2F7 (.leaf 0x109C3) (.leaf 0x164))))
def nameTree_220 : NameTree := .node 0x1E13E3EB87 (.node 0x1E13E3E387 (.node 0x1E13E3DF87 (.node 0x1E13E3DD87 (.leaf 0xE0049) (.node 0x1E13E3DE87 (.leaf 0xE004A) (.leaf 0xE004B))) (.node 0x1E13E3E187 (.node 0x1E13E3E087 (.leaf 0xE004C) (.leaf 0xE004D)) (.node 0x1E13E3E287 (.leaf 0xE004E) (.leaf 0xE004F)))) (.node 0x1E13E3E787 (.node 0x1E13E3E587 (.node 0x1E13E3E487 (.leaf 0xE0050) (.leaf 0xE0051)) (.node 0x1E13E3E687 (.leaf 0xE0052) (.leaf 0xE0053))) (.node 0x1E13E3E987 (.node 0x1E13E3E887 (.leaf 0xE0054) (.leaf 0xE0055)) (.node 0x1E13E3EA87 (.leaf 0xE0056) (.leaf 0xE0057))))) (nameTree_219)
def nameTree_221 : NameTree := .node 0x1E468F49F2 (.node 0x1E468E4FF2 (.node 0x1E468E4DF2 (.node 0x1E468E4CF2 (.leaf 0x130E1) (.leaf 0x130E2)) (.node 0x1E468E4EF2 (.leaf 0x130E3) (.leaf 0x130E5))) (.node 0x1E468F47F2 (.node 0x1E468E50F2 (.leaf 0x130E7) (.leaf 0x130E8)) (.node 0x1E468F48F2 (.leaf 0x130E9) (.leaf 0x130EB)))) (.node 0x1E468F4DF2 (.node 0x1E468F4BF2 (.node 0x1E468F4AF2 (.leaf 0x130EC) (.leaf 0x130ED)) (.node 0x1E468F4CF2 (.leaf 0x130EE) (.leaf 0x130EF))) (.node 0x1E468F4FF2 (.node 0x1E468F4EF2 (.leaf 0x130F0) (.leaf 0x130F1)) (.node 0x1E468F50F2 (.leaf 0x130F2) (.leaf 0x130F4))))
def nameTree_222 : NameTree := .node 0x1E468E4BF2 (.node 0x1E468D4DF2 (.node 0x1E468D49F2 (.node 0x1E468C12B4 (.leaf 0x6B1) (.node 0x1E468D48F2 (.leaf 0x112F) (.leaf 0x130D2))) (.node 0x1E468D4BF2 (.node 0x1E468D4AF2 (.leaf 0x130D3) (.leaf 0x130D4)) (.node 0x1E468D4CF2 (.leaf 0x130D5) (.leaf 0x130D6)))) (.node 0x1E468E47F2 (.node 0x1E468D4FF2 (.node 0x1E468D4EF2 (.leaf 0x130D7) (.leaf 0x130D8)) (.node 0x1E468D50F2 (.leaf 0x130D9) (.leaf 0x130DB))) (.node 0x1E468E49F2 (.node 0x1E468E48F2 (.leaf 0x130DD) (.leaf 0x130DE)) (.node 0x1E468E4AF2 (.leaf 0x130DF) (.leaf 0x130E0))))) (nameTree_221)
def nameTree_223 : NameTree := .node 0x1E46F66E35 (.node 0x1E46F66A35 (.node 0x1E46F66835 (.node 0x1E46F66735 (.leaf 0x68) (.leaf 0x69)) (.node 0x1E46F66935 (.leaf 0x6A) (.leaf 0x6B))) (.node 0x1E46F66C35 (.node 0x1E46F66B35 (.leaf 0x6C) (.leaf 0x6D)) (.node 0x1E46F66D35 (.leaf 0x6E) (.leaf 0x6F)))) (.node 0x1E46F67235 (.node 0x1E46F67035 (.node 0x1E46F66F35 (.leaf 0x70) (.leaf 0x71)) (.node 0x1E46F67135 (.leaf 0x72) (.leaf 0x73))) (.node 0x1E46F67435 (.node 0x1E46F67335 (.leaf 0x74) (.leaf 0x75)) (.node 0x1E46F67535 (.leaf 0x76) (.leaf 0x77))))
def nameTree_224 : NameTree := .node 0x1E46F66635 (.node 0x1E46904FF2 (.node 0x1E46904AF2 (.node 0x1E469048F2 (.leaf 0x130F5) (.node 0x1E469049F2 (.leaf 0x130F6) (.leaf 0x130F7))) (.node 0x1E46904DF2 (.node 0x1E46904BF2 (.leaf 0x130F8) (.leaf 0x130F9)) (.node 0x1E46904EF2 (.leaf 0x130FB) (.leaf 0x130FC)))) (.node 0x1E46F66235 (.node 0x1E46F66035 (.node 0x1E46F65F35 (.leaf 0x130FD) (.leaf 0x61)) (.node 0x1E46F66135 (.leaf 0x62) (.leaf 0x63))) (.node 0x1E46F66435 (.node 0x1E46F66335 (.leaf 0x64) (.leaf 0x65)) (.node 0x1E46F66535 (.leaf 0x66) (.leaf 0x67))))) (nameTree_223)
def nameTree_225 : NameTree := .node 0x1E5A786F38 (.node 0x1E56786F38 (.node 0x1E547E6F38 (.node 0x1E54776F38 (.leaf 0x112BB) (.leaf 0x112BF)) (.node 0x1E54896F38 (.leaf 0x112CC) (.leaf 0x112C5))) (.node 0x1E58826F38 (.node 0x1E5819DC94 (.leaf 0x112D3) (.leaf 0x2066)) (.node 0x1E59786F38 (.leaf 0x112CA) (.leaf 0x112DC)))) (.node 0x1E5D5A399E (.node 0x1E5B1F8AE1 (.node 0x1E5A846F38 (.leaf 0x112CE) (.leaf 0x112C6)) (.node 0x1E5D0E6D2A (.leaf 0x10E6E) (.leaf 0x2787))) (.node 0x1E610A66C7 (.node 0x1E5DEBC2F7 (.leaf 0x11C4) (.leaf 0x1D3)) (.node 0x1E610A6AC7 (.leaf 0x1021) (.leaf 0x1027))))
def nameTree_226 : NameTree := .node 0x1E51786F38 (.node 0x1E4A746F38 (.node 0x1E48726F38 (.node 0x1E46F67735 (.leaf 0x78) (.node 0x1E46F67835 (.leaf 0x79) (.leaf 0x7A))) (.node 0x1E491F8676 (.node 0x1E48786F38 (.leaf 0x112D5) (.leaf 0x112D6)) (.node 0x1E49786F38 (.leaf 0x10E6D) (.leaf 0x112C1)))) (.node 0x1E4D786F38 (.node 0x1E4CBEB949 (.node 0x1E4A786F38 (.leaf 0x112C8) (.leaf 0x112D0)) (.node 0x1E4D776F38 (.leaf 0x106) (.leaf 0x112BD))) (.node 0x1E50786F38 (.node 0x1E4E8AAD0F (.leaf 0x112BE) (.leaf 0x2A2A)) (.node 0x1E507A6F38 (.leaf 0x112C4) (.leaf 0x112C3))))) (nameTree_225)
def nameTree_227 : NameTree := .node 0x1E8B1705AB (.node 0x1E854F2F70 (.node 0x1E77DF29E6 (.node 0x1E779051A2 (.leaf 0x189) (.leaf 0x11C69)) (.node 0x1E819E4CC0 (.leaf 0x1D32D) (.leaf 0x2651))) (.node 0x1E8B16FDAB (.node 0x1E87E0B949 (.leaf 0x101D0) (.leaf 0xC9)) (.node 0x1E8B1701AB (.leaf 0x149D) (.leaf 0x1493)))) (.node 0x1E931705AB (.node 0x1E9316FDAB (.node 0x1E8B170BAB (.leaf 0x1495) (.leaf 0x1499)) (.node 0x1E931701AB (.leaf 0x147F) (.leaf 0x1475))) (.node 0x1E9400FDAB (.node 0x1E93170BAB (.leaf 0x1477) (.leaf 0x147B)) (.node 0x1E940F0BAB (.leaf 0x18E2) (.leaf 0x18E1))))
def nameTree_228 : NameTree := .node 0x1E75AB190D (.node 0x1E6FF63F2D (.node 0x1E6FEF372D (.node 0x1E610A74C7 (.leaf 0x1023) (.node 0x1E610A7AC7 (.leaf 0x1029) (.leaf 0x1025))) (.node 0x1E6FF6372D (.node 0x1E6FF33B2D (.leaf 0x2DAB) (.leaf 0x2DAC)) (.node 0x1E6FF63B2D (.leaf 0x2DB8) (.leaf 0x2DBD)))) (.node 0x1E74EF372D (.node 0x1E6FF64B2D (.node 0x1E6FF6452D (.leaf 0x2DBA) (.leaf 0x2DBE)) (.node 0x1E73DC1969 (.leaf 0x2DB9) (.leaf 0x11ED))) (.node 0x1E74FD372D (.node 0x1E74F33B2D (.leaf 0x132B) (.leaf 0x132C)) (.node 0x1E7505372D (.leaf 0x2D90) (.leaf 0x132F))))) (nameTree_227)
def nameTree_229 : NameTree := .node 0x1E9B170BAB (.node 0x1E9A8F5693 (.node 0x1E9975A8CA (.node 0x1E9975A2CA (.leaf 0x104DF) (.leaf 0x104E3)) (.node 0x1E9975AECA (.leaf 0x104EA) (.leaf 0x104F6))) (.node 0x1E9B1701AB (.node 0x1E9B16FDAB (.leaf 0x10396) (.leaf 0x1501)) (.node 0x1E9B1705AB (.leaf 0x14F7) (.leaf 0x14F9)))) (.node 0x1E9C170BAB (.node 0x1E9C1701AB (.node 0x1E9C16FDAB (.leaf 0x14FD) (.leaf 0x1462)) (.node 0x1E9C1705AB (.leaf 0x1458) (.leaf 0x145A))) (.node 0x1E9F0905AB (.node 0x1E9F00FDAB (.leaf 0x145E) (.leaf 0x141A)) (.node 0x1E9F0F0BAB (.leaf 0x1411) (.leaf 0x1415))))
def nameTree_230 : NameTree := .node 0x1E99759ECA (.node 0x1E95170BAB (.node 0x1E94170BAB (.node 0x1E941701AB (.leaf 0x14E7) (.node 0x1E941705AB (.leaf 0x14DD) (.leaf 0x14DF))) (.node 0x1E951701AB (.node 0x1E9516FDAB (.leaf 0x14E3) (.leaf 0x14B7)) (.node 0x1E951705AB (.leaf 0x14AD) (.leaf 0x14AF)))) (.node 0x1E981701AB (.node 0x1E961701AB (.node 0x1E9616FDAB (.leaf 0x14B3) (.leaf 0x14CC)) (.node 0x1E9816FDAB (.leaf 0x14CA) (.leaf 0x1445))) (.node 0x1E98170BAB (.node 0x1E981705AB (.leaf 0x143B) (.leaf 0x143D)) (.node 0x1E99759ACA (.leaf 0x1441) (.leaf 0x104D8))))) (nameTree_229)
def nameTree_231 : NameTree := .node 0x1B6B53C6D3 (.node 0x1B1BE7E364 (.node 0x1B1BD9D164 (.node 0x1B1BD5D364 (.node 0x1B1BD3D464 (nameTree_174) (nameTree_176)) (.node 0x1B1BD7D264 (nameTree_178) (nameTree_180))) (.node 0x1B1BE3E564 (.node 0x1B1BDAE664 (nameTree_181) (nameTree_183)) (.node 0x1B1BE5E464 (nameTree_185) (nameTree_187)))) (.node 0x1B23D8D964 (.node 0x1B23D4D964 (.node 0x1B23D2E164 (nameTree_188) (nameTree_190)) (.node 0x1B23D6D864 (nameTree_192) (nameTree_194))) (.node 0x1B23E3D664 (.node 0x1B23DAD764 (nameTree_195) (nameTree_197)) (.node 0x1B23E5D564 (nameTree_199) (nameTree_201))))) (.node 0x1D64E47134 (.node 0x1CDD8EC2F7 (.node 0x1C468D4FF2 (.node 0x1C075D5896 (nameTree_202) (nameTree_204)) (.node 0x1C7A9A6A5C (nameTree_206) (nameTree_208))) (.node 0x1D469048F2 (.node 0x1D4677A4A4 (nameTree_209) (nameTree_211)) (.node 0x1D469349F2 (nameTree_213) (nameTree_215)))) (.node 0x1E469047F2 (.node 0x1E13E3DC87 (.node 0x1DCD832A93 (nameTree_216) (nameTree_218)) (.node 0x1E442C93CF (nameTree_220) (nameTree_222))) (.node 0x1E610A6EC7 (.node 0x1E46F67635 (nameTree_224) (nameTree_226)) (.node 0x1E9416FDAB (nameTree_228) (nameTree_230)))))
def nameTree_232 : NameTree := .node 0x1EEB3CFD46 (.node 0x1EAEC4D1EE (.node 0x1EA11705AB (.node 0x1EA116FDAB (.leaf 0x5C6) (.node 0x1EA11701AB (.leaf 0x153A) (.leaf 0x1530))) (.node 0x1EAE42F3C1 (.node 0x1EA1170BAB (.leaf 0x1532) (.leaf 0x1536)) (.node 0x1EAE4C9A0D (.leaf 0x10A44) (.leaf 0x1C50)))) (.node 0x1ED8B60486 (.node 0x1EC302B949 (.node 0x1EB3DC25D1 (.leaf 0x1D9A7) (.leaf 0x124BF)) (.node 0x1EC5653B27 (.leaf 0x1F4) (.leaf 0x12468))) (.node 0x1EDE77A758 (.node 0x1EDB428887 (.leaf 0xA642) (.leaf 0xD7DF)) (.node 0x1EE2997D16 (.leaf 0x1DA1D) (.leaf 0x2404))))) (.node 0x1EF43E7B35 (.node 0x1EF1C0C2F7 (.node 0x1EEC3B07BF (.leaf 0x1EE4D) (.node 0x1EEDB1FA86 (.leaf 0xFEF9) (.leaf 0x52A))) (.node 0x1EF43E6735 (.node 0x1EF3ED6C96 (.leaf 0x17D) (.leaf 0x265B)) (.node 0x1EF43E6F35 (.leaf 0x11305) (.leaf 0x11307)))) (.node 0x1F017244AE (.node 0x1EF796777E (.node 0x1EF5A2456F (.leaf 0x11309) (.leaf 0x1D9E3)) (.node 0x1EFE24B949 (.leaf 0x1F4A5) (.leaf 0xCD))) (.node 0x1F04746DD0 (.node 0x1F017ECB36 (.leaf 0x1220A) (.leaf 0x1DA6C)) (.node 0x1F09E5BED2 (.leaf 0x3DA) (.leaf 0x42B)))))
def nameTree_233 : NameTree := .node 0x1F33A597E2 (.node 0x1F339EA0E2 (.node 0x1F339E96E2 (.node 0x1F339E90E2 (.leaf 0xA06A) (.leaf 0xA058)) (.node 0x1F339E9CE2 (.leaf 0xA067) (.leaf 0xA06E))) (.node 0x1F33A19FE2 (.node 0x1F33A197E2 (.leaf 0xA074) (.leaf 0xA02B)) (.node 0x1F33A58CE2 (.leaf 0xA029) (.leaf 0xA01C)))) (.node 0x1F33AB9BE2 (.node 0x1F33A59FE2 (.node 0x1F33A59BE2 (.leaf 0xA019) (.leaf 0xA016)) (.node 0x1F33AB97E2 (.leaf 0xA017) (.leaf 0xA028))) (.node 0x1F33B196E2 (.node 0x1F33AB9FE2 (.leaf 0xA025) (.leaf 0xA026)) (.node 0x1F33B197E2 (.leaf 0xA023) (.leaf 0xA02F))))
def nameTree_234 : NameTree := .node 0x1F339E8CE2 (.node 0x1F29FC2D4C (.node 0x1F18707F71 (.node 0x1F10CAC5AD (.leaf 0x78F) (.node 0x1F1351F60B (.leaf 0x1110A) (.leaf 0xFD2B))) (.node 0x1F262F6725 (.node 0x1F18AB79E0 (.leaf 0x1E89E) (.leaf 0x1E89C)) (.node 0x1F2750CE53 (.leaf 0x2B81) (.leaf 0x205E)))) (.node 0x1F339D97E2 (.node 0x1F2C373FCC (.node 0x1F2A6A717E (.leaf 0x17CD) (.leaf 0xABCA)) (.node 0x1F32F17A92 (.leaf 0x251F) (.leaf 0x1F1A8))) (.node 0x1F339D9FE2 (.node 0x1F339D9BE2 (.leaf 0xA021) (.leaf 0xA01E)) (.node 0x1F339E88E2 (.leaf 0xA01F) (.leaf 0xA060))))) (nameTree_233)
def nameTree_235 : NameTree := .node 0x1F34AB9FE2 (.node 0x1F34A59BE2 (.node 0x1F34A58CE2 (.node 0x1F34A4A0E2 (.leaf 0xA372) (.leaf 0xA378)) (.node 0x1F34A597E2 (.leaf 0xA2B4) (.leaf 0xA2B1))) (.node 0x1F34AB97E2 (.node 0x1F34A59FE2 (.leaf 0xA2AE) (.leaf 0xA2AF)) (.node 0x1F34AB9BE2 (.leaf 0xA2C0) (.leaf 0xA2BD)))) (.node 0x1F34B19BE2 (.node 0x1F34B197E2 (.node 0x1F34B196E2 (.leaf 0xA2BE) (.leaf 0xA2BB)) (.node 0x1F34B199E2 (.leaf 0xA2C7) (.leaf 0xA2C9))) (.node 0x1F34B597E2 (.node 0x1F34B19FE2 (.leaf 0xA2C4) (.leaf 0xA2C5)) (.node 0x1F34B599E2 (.leaf 0xA2CD) (.leaf 0xA2CF))))
def nameTree_236 : NameTree := .node 0x1F34A49CE2 (.node 0x1F349D97E2 (.node 0x1F33B597E2 (.node 0x1F33B19BE2 (.leaf 0xA031) (.node 0x1F33B19FE2 (.leaf 0xA02C) (.leaf 0xA02D))) (.node 0x1F33B59BE2 (.node 0x1F33B599E2 (.leaf 0xA035) (.leaf 0xA037)) (.node 0x1F33B59FE2 (.leaf 0xA032) (.leaf 0xA033)))) (.node 0x1F34A19FE2 (.node 0x1F349D9FE2 (.node 0x1F349D9BE2 (.leaf 0xA2B9) (.leaf 0xA2B6)) (.node 0x1F34A197E2 (.leaf 0xA2B7) (.leaf 0xA2C3))) (.node 0x1F34A48CE2 (.node 0x1F34A488E2 (.leaf 0xA2C1) (.leaf 0xA363)) (.node 0x1F34A496E2 (.leaf 0xA36F) (.leaf 0xA36B))))) (nameTree_235)
def nameTree_237 : NameTree := .node 0x1F35B19FE2 (.node 0x1F35B196E2 (.node 0x1F35AB9BE2 (.node 0x1F35AB97E2 (.leaf 0xA101) (.leaf 0xA110)) (.node 0x1F35AB9FE2 (.leaf 0xA10D) (.leaf 0xA10E))) (.node 0x1F35B199E2 (.node 0x1F35B197E2 (.leaf 0xA10C) (.leaf 0xA117)) (.node 0x1F35B19BE2 (.leaf 0xA119) (.leaf 0xA114)))) (.node 0x1F379D9BE2 (.node 0x1F36635D7E (.node 0x1F3630976E (.leaf 0xA115) (.leaf 0x63A)) (.node 0x1F379D97E2 (.leaf 0xAAE5) (.leaf 0xA0D4))) (.node 0x1F37A597E2 (.node 0x1F379D9FE2 (.leaf 0xA0D1) (.leaf 0xA0D2)) (.node 0x1F37A59BE2 (.leaf 0xA0D0) (.leaf 0xA0CD))))
def nameTree_238 : NameTree := .node 0x1F35A59FE2 (.node 0x1F35A090E2 (.node 0x1F359D9BE2 (.node 0x1F34B59FE2 (.leaf 0xA2CA) (.node 0x1F359D97E2 (.leaf 0xA2CB) (.leaf 0xA10A))) (.node 0x1F35A088E2 (.node 0x1F359D9FE2 (.leaf 0xA107) (.leaf 0xA108)) (.node 0x1F35A08CE2 (.leaf 0xA13F) (.leaf 0xA149)))) (.node 0x1F35A19FE2 (.node 0x1F35A09CE2 (.node 0x1F35A096E2 (.leaf 0xA138) (.leaf 0xA146)) (.node 0x1F35A197E2 (.leaf 0xA14D) (.leaf 0xA113))) (.node 0x1F35A597E2 (.node 0x1F35A58CE2 (.leaf 0xA111) (.leaf 0xA105)) (.node 0x1F35A59BE2 (.leaf 0xA103) (.leaf 0xA100))))) (nameTree_237)
def nameTree_239 : NameTree := .node 0x1F38A19FE2 (.node 0x1F37B597E2 (.node 0x1F37B197E2 (.node 0x1F37AB97E2 (.leaf 0xA0CE) (.node 0x1F37AB9FE2 (.leaf 0xA0D7) (.leaf 0xA0D5))) (.node 0x1F37B19BE2 (.node 0x1F37B199E2 (.leaf 0xA0DB) (.leaf 0xA0DD)) (.node 0x1F37B19FE2 (.leaf 0xA0D8) (.leaf 0xA0D9)))) (.node 0x1F389D9BE2 (.node 0x1F37B59FE2 (.node 0x1F37B59BE2 (.leaf 0xA0E1) (.leaf 0xA0DE)) (.node 0x1F389D97E2 (.leaf 0xA0DF) (.leaf 0xA1E5))) (.node 0x1F38A197E2 (.node 0x1F389D9FE2 (.leaf 0xA1E2) (.leaf 0xA1E3)) (.node 0x1F38A19BE2 (.leaf 0xA1F1) (.leaf 0xA1EE))))) (.node 0x1F38A597E2 (.node 0x1F38A390E2 (.node 0x1F38A388E2 (.leaf 0xA1EF) (.node 0x1F38A38CE2 (.leaf 0xA21C) (.leaf 0xA228))) (.node 0x1F38A39CE2 (.node 0x1F38A396E2 (.leaf 0xA216) (.leaf 0xA224)) (.node 0x1F38A58CE2 (.leaf 0xA22C) (.leaf 0xA1E0)))) (.node 0x1F38AB9BE2 (.node 0x1F38A59FE2 (.node 0x1F38A59BE2 (.leaf 0xA1DD) (.leaf 0xA1DA)) (.node 0x1F38AB97E2 (.leaf 0xA1DB) (.leaf 0xA1ED))) (.node 0x1F38B196E2 (.node 0x1F38AB9FE2 (.leaf 0xA1EA) (.leaf 0xA1EB)) (.node 0x1F38B197E2 (.leaf 0xA1E8) (.leaf 0xA1F5)))))
def nameTree_240 : NameTree := .node 0x1F39AA8CE2 (.node 0x1F39A996E2 (.node 0x1F39A988E2 (.node 0x1F39A8A0E2 (.leaf 0xA1AD) (.leaf 0xA1B3)) (.node 0x1F39A990E2 (.leaf 0xA09A) (.leaf 0xA093))) (.node 0x1F39A9A0E2 (.node 0x1F39A99CE2 (.leaf 0xA0A1) (.leaf 0xA0A5)) (.node 0x1F39AA88E2 (.leaf 0xA0AA) (.leaf 0xA172)))) (.node 0x1F39AB9FE2 (.node 0x1F39AB97E2 (.node 0x1F39AA90E2 (.leaf 0xA17A) (.leaf 0xA16A)) (.node 0x1F39AB9BE2 (.leaf 0xA27C) (.leaf 0xA279))) (.node 0x1F39B488E2 (.node 0x1F39B196E2 (.leaf 0xA27A) (.leaf 0xA277)) (.node 0x1F39B48CE2 (.leaf 0xA250) (.leaf 0xA25B))))
def nameTree_241 : NameTree := .node 0x1F39A89CE2 (.node 0x1F39A197E2 (.node 0x1F3946B949 (.node 0x1F38B19BE2 (.leaf 0xA1F7) (.node 0x1F38B19FE2 (.leaf 0xA1F2) (.leaf 0xA1F3))) (.node 0x1F399D9BE2 (.node 0x1F399D97E2 (.leaf 0x1E30) (.leaf 0xA274)) (.node 0x1F399D9FE2 (.leaf 0xA271) (.leaf 0xA272)))) (.node 0x1F39A888E2 (.node 0x1F39A58CE2 (.node 0x1F39A19FE2 (.leaf 0xA27F) (.leaf 0xA27D)) (.node 0x1F39A59BE2 (.leaf 0xA270) (.leaf 0xA26E))) (.node 0x1F39A890E2 (.node 0x1F39A88CE2 (.leaf 0xA1A0) (.leaf 0xA1A9)) (.node 0x1F39A896E2 (.leaf 0xA199) (.leaf 0xA1A6))))) (nameTree_240)
def nameTree_242 : NameTree := .node 0x1F3BB197E2 (.node 0x1F3BAB97E2 (.node 0x1F3BA69CE2 (.node 0x1F3BA696E2 (.leaf 0xA41A) (.leaf 0xA425)) (.node 0x1F3BA6A0E2 (.leaf 0xA429) (.leaf 0xA42F))) (.node 0x1F3BAB9FE2 (.node 0x1F3BAB9BE2 (.leaf 0xA3EF) (.leaf 0xA3EC)) (.node 0x1F3BB196E2 (.leaf 0xA3ED) (.leaf 0xA3EA)))) (.node 0x1F3BB597E2 (.node 0x1F3BB19BE2 (.node 0x1F3BB199E2 (.leaf 0xA3F3) (.leaf 0xA3F5)) (.node 0x1F3BB19FE2 (.leaf 0xA3F0) (.leaf 0xA3F1))) (.node 0x1F3BB59BE2 (.node 0x1F3BB599E2 (.leaf 0xA3F9) (.leaf 0xA3FB)) (.node 0x1F3BB59FE2 (.leaf 0xA3F6) (.leaf 0xA3F7))))
def nameTree_243 : NameTree := .node 0x1F3BA690E2 (.node 0x1F3AA197E2 (.node 0x1F39E2DF0A (.node 0x1F39B496E2 (.leaf 0xA248) (.node 0x1F39DFDF0A (.leaf 0xA258) (.leaf 0x11371))) (.node 0x1F39EAE70A (.node 0x1F39E4DF0A (.leaf 0x11372) (.leaf 0x11374)) (.node 0x1F3A2C9B82 (.leaf 0x11373) (.leaf 0x634)))) (.node 0x1F3BA58CE2 (.node 0x1F3AA19FE2 (.node 0x1F3AA19BE2 (.leaf 0xA007) (.leaf 0xA004)) (.node 0x1F3B51BB15 (.leaf 0xA005) (.leaf 0xA75C))) (.node 0x1F3BA59BE2 (.node 0x1F3BA597E2 (.leaf 0xA3E6) (.leaf 0xA3E3)) (.node 0x1F3BA59FE2 (.leaf 0xA3E0) (.leaf 0xA3E1))))) (nameTree_242)
def nameTree_244 : NameTree := .node 0x1F3DA58CE2 (.node 0x1F3D9D9BE2 (.node 0x1F3CB19FE2 (.node 0x1F3CB19BE2 (.leaf 0xA213) (.leaf 0xA20E)) (.node 0x1F3D9D97E2 (.leaf 0xA20F) (.leaf 0xA1C2))) (.node 0x1F3DA197E2 (.node 0x1F3D9D9FE2 (.leaf 0xA1BF) (.leaf 0xA1C0)) (.node 0x1F3DA19FE2 (.leaf 0xA1CD) (.leaf 0xA1CB)))) (.node 0x1F3DAB97E2 (.node 0x1F3DA59BE2 (.node 0x1F3DA597E2 (.leaf 0xA1BD) (.leaf 0xA1BA)) (.node 0x1F3DA59FE2 (.leaf 0xA1B7) (.leaf 0xA1B8))) (.node 0x1F3DAB9FE2 (.node 0x1F3DAB9BE2 (.leaf 0xA1CA) (.leaf 0xA1C7)) (.node 0x1F3DB196E2 (.leaf 0xA1C8) (.leaf 0xA1C5))))
def nameTree_245 : NameTree := .node 0x1F3CB199E2 (.node 0x1F3CA597E2 (.node 0x1F3CA197E2 (.node 0x1F3C9D9BE2 (.leaf 0xA202) (.node 0x1F3C9D9FE2 (.leaf 0xA1FF) (.leaf 0xA200))) (.node 0x1F3CA19FE2 (.node 0x1F3CA19BE2 (.leaf 0xA20D) (.leaf 0xA20A)) (.node 0x1F3CA58CE2 (.leaf 0xA20B) (.leaf 0xA1FD)))) (.node 0x1F3CAB9BE2 (.node 0x1F3CA59FE2 (.node 0x1F3CA59BE2 (.leaf 0xA1FB) (.leaf 0xA1F8)) (.node 0x1F3CAB97E2 (.leaf 0xA1F9) (.leaf 0xA209))) (.node 0x1F3CB196E2 (.node 0x1F3CAB9FE2 (.leaf 0xA206) (.leaf 0xA207)) (.node 0x1F3CB197E2 (.leaf 0xA204) (.leaf 0xA211))))) (nameTree_244)
def nameTree_246 : NameTree := .node 0x1F3EA39CE2 (.node 0x1F3DB59FE2 (.node 0x1F3DB19FE2 (.node 0x1F3DB199E2 (.leaf 0xA1D1) (.node 0x1F3DB19BE2 (.leaf 0xA1D3) (.leaf 0xA1CE))) (.node 0x1F3DB599E2 (.node 0x1F3DB597E2 (.leaf 0xA1CF) (.leaf 0xA1D7)) (.node 0x1F3DB59BE2 (.leaf 0xA1D9) (.leaf 0xA1D4)))) (.node 0x1F3EA19FE2 (.node 0x1F3E9D9BE2 (.node 0x1F3E9D97E2 (.leaf 0xA1D5) (.leaf 0xA0B8)) (.node 0x1F3E9D9FE2 (.leaf 0xA0B5) (.leaf 0xA0B6))) (.node 0x1F3EA38CE2 (.node 0x1F3EA388E2 (.leaf 0xA0C1) (.leaf 0xA234)) (.node 0x1F3EA396E2 (.leaf 0xA23E) (.leaf 0xA23B))))) (.node 0x1F3EAB9FE2 (.node 0x1F3EA59BE2 (.node 0x1F3EA58CE2 (.leaf 0xA242) (.node 0x1F3EA597E2 (.leaf 0xA0B3) (.leaf 0xA0B1))) (.node 0x1F3EAB97E2 (.node 0x1F3EA59FE2 (.leaf 0xA0AE) (.leaf 0xA0AF)) (.node 0x1F3EAB9BE2 (.leaf 0xA0C0) (.leaf 0xA0BD)))) (.node 0x1F3EB19BE2 (.node 0x1F3EB197E2 (.node 0x1F3EB196E2 (.leaf 0xA0BE) (.leaf 0xA0BB)) (.node 0x1F3EB199E2 (.leaf 0xA0C6) (.leaf 0xA0C8))) (.node 0x1F3EB597E2 (.node 0x1F3EB19FE2 (.leaf 0xA0C3) (.leaf 0xA0C4)) (.node 0x1F3EB59BE2 (.leaf 0xA0CC) (.leaf 0xA0C9)))))
def nameTree_247 : NameTree := .node 0x1F3FA696E2 (.node 0x1F3FA597E2 (.node 0x1F3FA396E2 (.node 0x1F3FA38CE2 (.leaf 0xA262) (.leaf 0xA26C)) (.node 0x1F3FA58CE2 (.leaf 0xA269) (.leaf 0xA182))) (.node 0x1F3FA59FE2 (.node 0x1F3FA59BE2 (.leaf 0xA180) (.leaf 0xA17D)) (.node 0x1F3FA690E2 (.leaf 0xA17E) (.leaf 0xA433)))) (.node 0x1F3FAB9BE2 (.node 0x1F3FA6A0E2 (.node 0x1F3FA69CE2 (.leaf 0xA43D) (.leaf 0xA440)) (.node 0x1F3FAB97E2 (.leaf 0xA446) (.leaf 0xA18D))) (.node 0x1F3FAE88E2 (.node 0x1F3FAB9FE2 (.leaf 0xA18A) (.leaf 0xA18B)) (.node 0x1F3FAE8CE2 (.leaf 0xA396) (.leaf 0xA39D))))
def nameTree_248 : NameTree := .node 0x1F3FA388E2 (.node 0x1F3F9EA0E2 (.node 0x1F3F9E88E2 (.node 0x1F3F9D97E2 (.leaf 0xA0CA) (.node 0x1F3F9D9FE2 (.leaf 0xA186) (.leaf 0xA184))) (.node 0x1F3F9E96E2 (.node 0x1F3F9E90E2 (.leaf 0xA07F) (.leaf 0xA078)) (.node 0x1F3F9E9CE2 (.leaf 0xA083) (.leaf 0xA087)))) (.node 0x1F3FA096E2 (.node 0x1F3FA08CE2 (.node 0x1F3FA088E2 (.leaf 0xA08D) (.leaf 0xA159)) (.node 0x1F3FA090E2 (.leaf 0xA160) (.leaf 0xA153))) (.node 0x1F3FA197E2 (.node 0x1F3FA09CE2 (.leaf 0xA15D) (.leaf 0xA164)) (.node 0x1F3FA19FE2 (.leaf 0xA190) (.leaf 0xA18E))))) (nameTree_247)
def nameTree_249 : NameTree := .node 0x1F41A59FE2 (.node 0x1F419D9FE2 (.node 0x1F419D97E2 (.node 0x1F40F2EEE4 (.leaf 0xA305) (.leaf 0x1F318)) (.node 0x1F419D9BE2 (.leaf 0xA042) (.leaf 0xA03F))) (.node 0x1F41A597E2 (.node 0x1F41A58CE2 (.leaf 0xA040) (.leaf 0xA03D)) (.node 0x1F41A59BE2 (.leaf 0xA03B) (.leaf 0xA038)))) (.node 0x1F41B196E2 (.node 0x1F41AB9BE2 (.node 0x1F41AB97E2 (.leaf 0xA039) (.leaf 0xA049)) (.node 0x1F41AB9FE2 (.leaf 0xA046) (.leaf 0xA047))) (.node 0x1F41B199E2 (.node 0x1F41B197E2 (.leaf 0xA044) (.leaf 0xA04D)) (.node 0x1F41B19BE2 (.leaf 0xA04F) (.leaf 0xA04A))))
def nameTree_250 : NameTree := .node 0x1F3FB6A0E2 (.node 0x1F3FB19FE2 (.node 0x1F3FB196E2 (.node 0x1F3FAE9CE2 (.leaf 0xA399) (.node 0x1F3FAEA0E2 (.leaf 0xA3A1) (.leaf 0xA3A7))) (.node 0x1F3FB199E2 (.node 0x1F3FB197E2 (.leaf 0xA188) (.leaf 0xA194)) (.node 0x1F3FB19BE2 (.leaf 0xA196) (.leaf 0xA191)))) (.node 0x1F3FB688E2 (.node 0x1F3FB596E2 (.node 0x1F3FB590E2 (.leaf 0xA192) (.leaf 0xA44C)) (.node 0x1F3FB59CE2 (.leaf 0xA457) (.leaf 0xA45B))) (.node 0x1F3FB690E2 (.node 0x1F3FB68CE2 (.leaf 0xA2F6) (.leaf 0xA2FD)) (.node 0x1F3FB69CE2 (.leaf 0xA2EF) (.leaf 0xA2FF))))) (nameTree_249)
def nameTree_251 : NameTree := .node 0x1F439D9FE2 (.node 0x1F42B59BE2 (.node 0x1F42B597E2 (.node 0x1F42B19FE2 (.leaf 0xA40C) (.leaf 0xA40D)) (.node 0x1F42B599E2 (.leaf 0xA415) (.leaf 0xA417))) (.node 0x1F439D97E2 (.node 0x1F42B59FE2 (.leaf 0xA412) (.leaf 0xA413)) (.node 0x1F439D9BE2 (.leaf 0xA3C9) (.leaf 0xA3C6)))) (.node 0x1F43AB9BE2 (.node 0x1F43A19FE2 (.node 0x1F43A197E2 (.leaf 0xA3C7) (.leaf 0xA3D3)) (.node 0x1F43AB97E2 (.leaf 0xA3D1) (.leaf 0xA3D0))) (.node 0x1F43AE88E2 (.node 0x1F43AB9FE2 (.leaf 0xA3CD) (.leaf 0xA3CE)) (.node 0x1F43AE8CE2 (.leaf 0xA37D) (.leaf 0xA386))))
def nameTree_252 : NameTree := .node 0x1F42B19BE2 (.node 0x1F42A59BE2 (.node 0x1F41B59BE2 (.node 0x1F41B597E2 (.leaf 0xA04B) (.node 0x1F41B599E2 (.leaf 0xA053) (.leaf 0xA055))) (.node 0x1F42A58CE2 (.node 0x1F41B59FE2 (.leaf 0xA050) (.leaf 0xA051)) (.node 0x1F42A597E2 (.leaf 0xA402) (.leaf 0xA3FF)))) (.node 0x1F42AB9FE2 (.node 0x1F42AB97E2 (.node 0x1F42A59FE2 (.leaf 0xA3FC) (.leaf 0xA3FD)) (.node 0x1F42AB9BE2 (.leaf 0xA40B) (.leaf 0xA408))) (.node 0x1F42B197E2 (.node 0x1F42B196E2 (.leaf 0xA409) (.leaf 0xA406)) (.node 0x1F42B199E2 (.leaf 0xA40F) (.leaf 0xA411))))) (nameTree_251)
def nameTree_253 : NameTree := .node 0x1F44A197E2 (.node 0x1F43B19FE2 (.node 0x1F43B196E2 (.node 0x1F43AE9CE2 (.leaf 0xA382) (.node 0x1F43AEA0E2 (.leaf 0xA38A) (.leaf 0xA390))) (.node 0x1F43B199E2 (.node 0x1F43B197E2 (.leaf 0xA3CB) (.leaf 0xA3D7)) (.node 0x1F43B19BE2 (.leaf 0xA3D9) (.leaf 0xA3D4)))) (.node 0x1F43B59FE2 (.node 0x1F43B599E2 (.node 0x1F43B597E2 (.leaf 0xA3D5) (.leaf 0xA3DD)) (.node 0x1F43B59BE2 (.leaf 0xA3DF) (.leaf 0xA3DA))) (.node 0x1F449D9BE2 (.node 0x1F449D97E2 (.leaf 0xA3DB) (.leaf 0xA313)) (.node 0x1F449D9FE2 (.leaf 0xA310) (.leaf 0xA311))))) (.node 0x1F44A58CE2 (.node 0x1F44A48CE2 (.node 0x1F44A19FE2 (.leaf 0xA31D) (.node 0x1F44A488E2 (.leaf 0xA31B) (.leaf 0xA3AD))) (.node 0x1F44A49CE2 (.node 0x1F44A496E2 (.leaf 0xA3B8) (.leaf 0xA3B4)) (.node 0x1F44A4A0E2 (.leaf 0xA3BC) (.leaf 0xA3C2)))) (.node 0x1F44AB97E2 (.node 0x1F44A59BE2 (.node 0x1F44A597E2 (.leaf 0xA30E) (.leaf 0xA30C)) (.node 0x1F44A59FE2 (.leaf 0xA309) (.leaf 0xA30A))) (.node 0x1F44AB9FE2 (.node 0x1F44AB9BE2 (.leaf 0xA31A) (.leaf 0xA317)) (.node 0x1F44AF88E2 (.leaf 0xA318) (.leaf 0xA333)))))
def nameTree_254 : NameTree := .node 0x1F45AB97E2 (.node 0x1F45A58CE2 (.node 0x1F45A197E2 (.node 0x1F459D9FE2 (.leaf 0xA121) (.leaf 0xA122)) (.node 0x1F45A19FE2 (.leaf 0xA12F) (.leaf 0xA12D))) (.node 0x1F45A59BE2 (.node 0x1F45A597E2 (.leaf 0xA11F) (.leaf 0xA11D)) (.node 0x1F45A59FE2 (.leaf 0xA11A) (.leaf 0xA11B)))) (.node 0x1F45B197E2 (.node 0x1F45AB9FE2 (.node 0x1F45AB9BE2 (.leaf 0xA12C) (.leaf 0xA129)) (.node 0x1F45B196E2 (.leaf 0xA12A) (.leaf 0xA127))) (.node 0x1F45B19BE2 (.node 0x1F45B199E2 (.leaf 0xA133) (.leaf 0xA135)) (.node 0x1F45B19FE2 (.leaf 0xA130) (.leaf 0xA131))))
def nameTree_255 : NameTree := .node 0x1F459D9BE2 (.node 0x1F44B199E2 (.node 0x1F44AF9CE2 (.node 0x1F44AF90E2 (.leaf 0xA33A) (.node 0x1F44AF96E2 (.leaf 0xA32C) (.leaf 0xA337))) (.node 0x1F44B196E2 (.node 0x1F44AFA0E2 (.leaf 0xA33E) (.leaf 0xA342)) (.node 0x1F44B197E2 (.leaf 0xA315) (.leaf 0xA321)))) (.node 0x1F44B599E2 (.node 0x1F44B19FE2 (.node 0x1F44B19BE2 (.leaf 0xA323) (.leaf 0xA31E)) (.node 0x1F44B597E2 (.leaf 0xA31F) (.leaf 0xA327))) (.node 0x1F44B59FE2 (.node 0x1F44B59BE2 (.leaf 0xA329) (.leaf 0xA324)) (.node 0x1F459D97E2 (.leaf 0xA325) (.leaf 0xA124))))) (nameTree_254)
def nameTree_256 : NameTree := .node 0x1F468F4BF2 (.node 0x1F468F47F2 (.node 0x1F468E4FF2 (.node 0x1F468E4EF2 (.leaf 0x1310F) (.leaf 0x13110)) (.node 0x1F468E50F2 (.leaf 0x13111) (.leaf 0x13112))) (.node 0x1F468F49F2 (.node 0x1F468F48F2 (.leaf 0x13113) (.leaf 0x13114)) (.node 0x1F468F4AF2 (.leaf 0x13116) (.leaf 0x13117)))) (.node 0x1F468F4FF2 (.node 0x1F468F4DF2 (.node 0x1F468F4CF2 (.leaf 0x13118) (.leaf 0x13119)) (.node 0x1F468F4EF2 (.leaf 0x1311A) (.leaf 0x1311B))) (.node 0x1F469047F2 (.node 0x1F468F50F2 (.leaf 0x1311C) (.leaf 0x1311D)) (.node 0x1F469048F2 (.leaf 0x1311E) (.leaf 0x1311F))))
def nameTree_257 : NameTree := .node 0x1F468E4DF2 (.node 0x1F468D4FF2 (.node 0x1F468D4BF2 (.node 0x1F468D49F2 (.leaf 0x130FE) (.node 0x1F468D4AF2 (.leaf 0x13100) (.leaf 0x13101))) (.node 0x1F468D4DF2 (.node 0x1F468D4CF2 (.leaf 0x13102) (.leaf 0x13103)) (.node 0x1F468D4EF2 (.leaf 0x13104) (.leaf 0x13105)))) (.node 0x1F468E49F2 (.node 0x1F468E47F2 (.node 0x1F468D50F2 (.leaf 0x13106) (.leaf 0x13107)) (.node 0x1F468E48F2 (.leaf 0x13108) (.leaf 0x13109))) (.node 0x1F468E4BF2 (.node 0x1F468E4AF2 (.leaf 0x1310A) (.leaf 0x1310B)) (.node 0x1F468E4CF2 (.leaf 0x1310D) (.leaf 0x1310E))))) (nameTree_256)
def nameTree_258 : NameTree := .node 0x1F46AB9FE2 (.node 0x1F469248F2 (.node 0x1F469150F2 (.node 0x1F46914FF2 (.leaf 0x13134) (.leaf 0x13136)) (.node 0x1F469247F2 (.leaf 0x13137) (.leaf 0x13138))) (.node 0x1F46924AF2 (.node 0x1F469249F2 (.leaf 0x13139) (.leaf 0x1313D)) (.node 0x1F46AB97E2 (.leaf 0x1313E) (.leaf 0xA00E)))) (.node 0x1F47A197E2 (.node 0x1F479D9BE2 (.node 0x1F479D97E2 (.leaf 0xA00C) (.leaf 0xA0ED)) (.node 0x1F479D9FE2 (.leaf 0xA0EA) (.leaf 0xA0EB))) (.node 0x1F47A58CE2 (.node 0x1F47A19FE2 (.leaf 0xA0F3) (.leaf 0xA0F2)) (.node 0x1F47A597E2 (.leaf 0xA0E8) (.leaf 0xA0E5))))
def nameTree_259 : NameTree := .node 0x1F46914EF2 (.node 0x1F469050F2 (.node 0x1F46904CF2 (.node 0x1F46904AF2 (.leaf 0x13121) (.node 0x1F46904BF2 (.leaf 0x13122) (.leaf 0x13123))) (.node 0x1F46904EF2 (.node 0x1F46904DF2 (.leaf 0x13124) (.leaf 0x13125)) (.node 0x1F46904FF2 (.leaf 0x13126) (.leaf 0x13128)))) (.node 0x1F46914AF2 (.node 0x1F469148F2 (.node 0x1F469147F2 (.leaf 0x1312A) (.leaf 0x1312B)) (.node 0x1F469149F2 (.leaf 0x1312C) (.leaf 0x1312D))) (.node 0x1F46914CF2 (.node 0x1F46914BF2 (.leaf 0x1312E) (.leaf 0x1312F)) (.node 0x1F46914DF2 (.leaf 0x13130) (.leaf 0x13132))))) (nameTree_258)
def nameTree_260 : NameTree := .node 0x1F489D9FE2 (.node 0x1F47B19BE2 (.node 0x1F47AB9BE2 (.node 0x1F47A59FE2 (.leaf 0xA0E2) (.node 0x1F47AB97E2 (.leaf 0xA0E3) (.leaf 0xA0F1))) (.node 0x1F47B197E2 (.node 0x1F47AB9FE2 (.leaf 0xA0EE) (.leaf 0xA0EF)) (.node 0x1F47B199E2 (.leaf 0xA0F7) (.leaf 0xA0F9)))) (.node 0x1F47B59BE2 (.node 0x1F47B597E2 (.node 0x1F47B19FE2 (.leaf 0xA0F4) (.leaf 0xA0F5)) (.node 0x1F47B599E2 (.leaf 0xA0FD) (.leaf 0xA0FF))) (.node 0x1F489D97E2 (.node 0x1F47B59FE2 (.leaf 0xA0FA) (.leaf 0xA0FB)) (.node 0x1F489D9BE2 (.leaf 0xA283) (.leaf 0xA280))))) (.node 0x1F49A597E2 (.node 0x1F48AB97E2 (.node 0x1F48A197E2 (.leaf 0xA281) (.node 0x1F48A19FE2 (.leaf 0xA28C) (.leaf 0xA28A))) (.node 0x1F48B196E2 (.node 0x1F48AB9FE2 (.leaf 0xA289) (.leaf 0xA287)) (.node 0x1F49A58CE2 (.leaf 0xA285) (.leaf 0xA463)))) (.node 0x1F49AB9BE2 (.node 0x1F49A59FE2 (.node 0x1F49A59BE2 (.leaf 0xA460) (.leaf 0xA45D)) (.node 0x1F49AB97E2 (.leaf 0xA45E) (.leaf 0xA46A))) (.node 0x1F49B196E2 (.node 0x1F49AB9FE2 (.leaf 0xA467) (.leaf 0xA468)) (.node 0x1F49B597E2 (.leaf 0xA466) (.leaf 0xA46E)))))
def nameTree_261 : NameTree := .node 0x1F4BA197E2 (.node 0x1F4B4A0E8D (.node 0x1F4AB59BE2 (.node 0x1F4AB599E2 (.leaf 0xA48A) (.leaf 0xA48C)) (.node 0x1F4AB59FE2 (.leaf 0xA487) (.leaf 0xA488))) (.node 0x1F4B9D9BE2 (.node 0x1F4B9D97E2 (.leaf 0x52F) (.leaf 0xA297)) (.node 0x1F4B9D9FE2 (.leaf 0xA294) (.leaf 0xA295)))) (.node 0x1F4BA496E2 (.node 0x1F4BA488E2 (.node 0x1F4BA19FE2 (.leaf 0xA2A1) (.leaf 0xA29F)) (.node 0x1F4BA48CE2 (.leaf 0xA348) (.leaf 0xA353))) (.node 0x1F4BA4A0E2 (.node 0x1F4BA49CE2 (.leaf 0xA34F) (.leaf 0xA357)) (.node 0x1F4BA58CE2 (.leaf 0xA35D) (.leaf 0xA292))))
def nameTree_262 : NameTree := .node 0x1F4AB597E2 (.node 0x1F4AAB97E2 (.node 0x1F4AA58CE2 (.node 0x1F49B59BE2 (.leaf 0xA470) (.node 0x1F49B59FE2 (.leaf 0xA46B) (.leaf 0xA46C))) (.node 0x1F4AA59BE2 (.node 0x1F4AA597E2 (.leaf 0xA477) (.leaf 0xA474)) (.node 0x1F4AA59FE2 (.leaf 0xA471) (.leaf 0xA472)))) (.node 0x1F4AB197E2 (.node 0x1F4AAB9FE2 (.node 0x1F4AAB9BE2 (.leaf 0xA480) (.leaf 0xA47D)) (.node 0x1F4AB196E2 (.leaf 0xA47E) (.leaf 0xA47B))) (.node 0x1F4AB19BE2 (.node 0x1F4AB199E2 (.leaf 0xA484) (.leaf 0xA486)) (.node 0x1F4AB19FE2 (.leaf 0xA481) (.leaf 0xA482))))) (nameTree_261)
def nameTree_263 : NameTree := .node 0x1F56D7B949 (.node 0x1F4BB69CE2 (.node 0x1F4BB690E2 (.node 0x1F4BB68CE2 (.leaf 0xA2DA) (.leaf 0xA2E0)) (.node 0x1F4BB696E2 (.leaf 0xA2D2) (.leaf 0xA2DD))) (.node 0x1F4F4F1B40 (.node 0x1F4BB6A0E2 (.leaf 0xA2E3) (.leaf 0xA2E9)) (.node 0x1F545CF591 (.leaf 0x29D6) (.leaf 0x1681B)))) (.node 0x1F61B77F55 (.node 0x1F5A25CF1F (.node 0x1F57EF5E76 (.leaf 0x139) (.leaf 0x81E)) (.node 0x1F5F629C8D (.leaf 0x1D968) (.leaf 0x4A3))) (.node 0x1F6BF5CD43 (.node 0x1F64A53BF8 (.leaf 0x8AB) (.leaf 0x2972)) (.node 0x1F6DBBE432 (.leaf 0x1F30) (.leaf 0x1202F))))
def nameTree_264 : NameTree := .node 0x1F4BB688E2 (.node 0x1F4BB197E2 (.node 0x1F4BAB97E2 (.node 0x1F4BA59BE2 (.leaf 0xA290) (.node 0x1F4BA59FE2 (.leaf 0xA28D) (.leaf 0xA28E))) (.node 0x1F4BAB9FE2 (.node 0x1F4BAB9BE2 (.leaf 0xA29E) (.leaf 0xA29B)) (.node 0x1F4BB196E2 (.leaf 0xA29C) (.leaf 0xA299)))) (.node 0x1F4BB597E2 (.node 0x1F4BB19BE2 (.node 0x1F4BB199E2 (.leaf 0xA2A5) (.leaf 0xA2A7)) (.node 0x1F4BB19FE2 (.leaf 0xA2A2) (.leaf 0xA2A3))) (.node 0x1F4BB59BE2 (.node 0x1F4BB599E2 (.leaf 0xA2AB) (.leaf 0xA2AD)) (.node 0x1F4BB59FE2 (.leaf 0xA2A8) (.leaf 0xA2A9))))) (nameTree_263)
def nameTree_265 : NameTree := .node 0x1F91F9B949 (.node 0x1F869F6F5C (.node 0x1F7AA0805C (.node 0x1F7A9F6B5C (.leaf 0x12108) (.leaf 0x1210A)) (.node 0x1F7E80C0B1 (.leaf 0x12111) (.leaf 0x1F747))) (.node 0x1F86F33B2D (.node 0x1F86EF372D (.leaf 0x12126) (.leaf 0xAB13)) (.node 0x1F919FFF8D (.leaf 0xAB14) (.leaf 0x4AB)))) (.node 0x1F9BF4E255 (.node 0x1F997A2FBE (.node 0x1F93251399 (.leaf 0x143) (.leaf 0x11697)) (.node 0x1F9AA5F014 (.leaf 0x6CC) (.leaf 0x1D098))) (.node 0x1FA1E92406 (.node 0x1F9DAFD4CE (.leaf 0x17F6) (.leaf 0x2310)) (.node 0x1FA261B75A (.leaf 0xFEA4) (.leaf 0xFEC4))))
def nameTree_266 : NameTree := .node 0x1F7A9F6A5C (.node 0x1F7105372D (.node 0x1F70F63F2D (.node 0x1F70F33B2D (.leaf 0x12FB) (.node 0x1F70F63B2D (.leaf 0x12FC) (.leaf 0xAB0D))) (.node 0x1F70F64B2D (.node 0x1F70F6452D (.leaf 0xAB0A) (.leaf 0xAB0E)) (.node 0x1F70FD372D (.leaf 0xAB09) (.leaf 0x2D8D)))) (.node 0x1F73D5B44F (.node 0x1F729B6A5C (.node 0x1F728F795C (.leaf 0x12FF) (.leaf 0x120EE)) (.node 0x1F729F6B5C (.leaf 0x120F7) (.leaf 0x120FC))) (.node 0x1F767F6A5C (.node 0x1F7468B949 (.leaf 0x2E40) (.leaf 0x1E3E)) (.node 0x1F78054D34 (.leaf 0x1237B) (.leaf 0x1D9EC))))) (nameTree_265)
def nameTree_267 : NameTree := .node 0x1FB02F80A5 (.node 0x1FB02E7EA5 (.node 0x1FAF8AB949 (.node 0x1FA3AAF402 (.leaf 0xFEC8) (.node 0x1FA7DC15F0 (.leaf 0x5C7) (.leaf 0x19BB))) (.node 0x1FB02E7CA5 (.node 0x1FB02E7BA5 (.leaf 0xD3) (.leaf 0x2803)) (.node 0x1FB02E7DA5 (.leaf 0x2805) (.leaf 0x2809)))) (.node 0x1FB02F7CA5 (.node 0x1FB02E80A5 (.node 0x1FB02E7FA5 (.leaf 0x2811) (.leaf 0x2821)) (.node 0x1FB02E81A5 (.leaf 0x2841) (.leaf 0x2881))) (.node 0x1FB02F7EA5 (.node 0x1FB02F7DA5 (.leaf 0x2806) (.leaf 0x280A)) (.node 0x1FB02F7FA5 (.leaf 0x2812) (.leaf 0x2822))))) (.node 0x1FB0317EA5 (.node 0x1FB0307EA5 (.node 0x1FB02F81A5 (.leaf 0x2842) (.node 0x1FB0307DA5 (.leaf 0x2882) (.leaf 0x280C))) (.node 0x1FB03080A5 (.node 0x1FB0307FA5 (.leaf 0x2814) (.leaf 0x2824)) (.node 0x1FB03081A5 (.leaf 0x2844) (.leaf 0x2884)))) (.node 0x1FB0327FA5 (.node 0x1FB03180A5 (.node 0x1FB0317FA5 (.leaf 0x2818) (.leaf 0x2828)) (.node 0x1FB03181A5 (.leaf 0x2848) (.leaf 0x2888))) (.node 0x1FB03281A5 (.node 0x1FB03280A5 (.leaf 0x2830) (.leaf 0x2850)) (.node 0x1FB03380A5 (.leaf 0x2890) (.leaf 0x2860)))))
def nameTree_268 : NameTree := .node 0x200CEA538D (.node 0x1FFCA933AB (.node 0x1FF48912EC (.node 0x1FF064A126 (.leaf 0x2426) (.leaf 0x1D8FE)) (.node 0x1FFA98EDE6 (.leaf 0x21C2) (.leaf 0x2571))) (.node 0x2003B579F9 (.node 0x1FFF9C6F58 (.leaf 0x29A9) (.leaf 0x12241)) (.node 0x20083DB949 (.leaf 0x1DA4C) (.leaf 0x154)))) (.node 0x201701116B (.node 0x200FD340AA (.node 0x200CEAAED2 (.leaf 0x4DF6) (.leaf 0xA684)) (.node 0x201340CFE3 (.leaf 0x1DCD) (.leaf 0x1221F))) (.node 0x2025CEB949 (.node 0x202306E2E8 (.leaf 0x326E) (.leaf 0xFEC5)) (.node 0x2030059B98 (.leaf 0x15A) (.leaf 0x2EF3))))
def nameTree_269 : NameTree := .node 0x1FEE6586CA (.node 0x1FC958C7CC (.node 0x1FBBE015F0 (.node 0x1FB03481A5 (.leaf 0x28A0) (.node 0x1FB5DC15F0 (.leaf 0x28C0) (.leaf 0x19BE))) (.node 0x1FC207EAF9 (.node 0x1FBC862EDE (.leaf 0x19BF) (.leaf 0x1F612)) (.node 0x1FC20DF0F9 (.leaf 0x1100E) (.leaf 0x1100C)))) (.node 0x1FDC63C78A (.node 0x1FCFEF8764 (.node 0x1FCD1BB949 (.leaf 0x2733) (.leaf 0x1E54)) (.node 0x1FD79DDB3B (.leaf 0xFE90) (.leaf 0x17F5))) (.node 0x1FE21E396F (.node 0x1FDE436C68 (.leaf 0x12035) (.leaf 0xDE)) (.node 0x1FEC7AB184 (.leaf 0x1D068) (.leaf 0x12367))))) (nameTree_268)
def nameTree_270 : NameTree := .node 0x20468F48F2 (.node 0x20468E4EF2 (.node 0x20468E4CF2 (.node 0x20468E4BF2 (.leaf 0x1314F) (.leaf 0x13150)) (.node 0x20468E4DF2 (.leaf 0x13151) (.leaf 0x13152))) (.node 0x20468E50F2 (.node 0x20468E4FF2 (.leaf 0x13153) (.leaf 0x13154)) (.node 0x20468F47F2 (.leaf 0x13155) (.leaf 0x13156)))) (.node 0x20468F4CF2 (.node 0x20468F4AF2 (.node 0x20468F49F2 (.leaf 0x13158) (.leaf 0x13159)) (.node 0x20468F4BF2 (.leaf 0x1315A) (.leaf 0x1315B))) (.node 0x20468F4EF2 (.node 0x20468F4DF2 (.leaf 0x1315C) (.leaf 0x1315D)) (.node 0x20468F4FF2 (.leaf 0x1315F) (.leaf 0x13160))))
def nameTree_271 : NameTree := .node 0x20468E4AF2 (.node 0x20468D4CF2 (.node 0x20468D48F2 (.node 0x203EBEBFD6 (.leaf 0x290) (.node 0x204636490D (.leaf 0xFC9A) (.leaf 0x2A08))) (.node 0x20468D4AF2 (.node 0x20468D49F2 (.leaf 0x1313F) (.leaf 0x13140)) (.node 0x20468D4BF2 (.leaf 0x13141) (.leaf 0x13142)))) (.node 0x20468D50F2 (.node 0x20468D4EF2 (.node 0x20468D4DF2 (.leaf 0x13143) (.leaf 0x13144)) (.node 0x20468D4FF2 (.leaf 0x13146) (.leaf 0x13149))) (.node 0x20468E48F2 (.node 0x20468E47F2 (.leaf 0x1314A) (.leaf 0x1314B)) (.node 0x20468E49F2 (.leaf 0x1314C) (.leaf 0x1314E))))) (nameTree_270)
def nameTree_272 : NameTree := .node 0x20469249F2 (.node 0x2046914FF2 (.node 0x2046914DF2 (.node 0x2046914CF2 (.leaf 0x13173) (.leaf 0x13174)) (.node 0x2046914EF2 (.leaf 0x13176) (.leaf 0x13177))) (.node 0x20469247F2 (.node 0x20469150F2 (.leaf 0x13178) (.leaf 0x13179)) (.node 0x20469248F2 (.leaf 0x1317A) (.leaf 0x1317B)))) (.node 0x204D1EE379 (.node 0x2046924BF2 (.node 0x2046924AF2 (.leaf 0x1317C) (.leaf 0x1317D)) (.node 0x2049D7AF26 (.leaf 0x1317E) (.leaf 0xFBB5))) (.node 0x20564E5338 (.node 0x205215AC9A (.leaf 0x1D180) (.leaf 0x2CE)) (.node 0x2058844AA9 (.leaf 0xFD9E) (.leaf 0x2B79))))
def nameTree_273 : NameTree := .node 0x2046914BF2 (.node 0x2046904DF2 (.node 0x20469049F2 (.node 0x20469047F2 (.leaf 0x13161) (.node 0x20469048F2 (.leaf 0x13162) (.leaf 0x13163))) (.node 0x2046904BF2 (.node 0x2046904AF2 (.leaf 0x13164) (.leaf 0x13165)) (.node 0x2046904CF2 (.leaf 0x13166) (.leaf 0x13167)))) (.node 0x20469147F2 (.node 0x2046904FF2 (.node 0x2046904EF2 (.leaf 0x13168) (.leaf 0x1316A)) (.node 0x20469050F2 (.leaf 0x1316C) (.leaf 0x1316D))) (.node 0x20469149F2 (.node 0x20469148F2 (.leaf 0x1316E) (.leaf 0x1316F)) (.node 0x2046914AF2 (.leaf 0x13170) (.leaf 0x13171))))) (nameTree_272)
def nameTree_274 : NameTree := .node 0x205B4AE497 (.node 0x205B4ADC97 (.node 0x205B4AD897 (.node 0x205A10AB12 (.leaf 0x2200) (.node 0x205B4AD797 (.leaf 0x77C) (.leaf 0xFF21))) (.node 0x205B4ADA97 (.node 0x205B4AD997 (.leaf 0xFF22) (.leaf 0xFF23)) (.node 0x205B4ADB97 (.leaf 0xFF24) (.leaf 0xFF25)))) (.node 0x205B4AE097 (.node 0x205B4ADE97 (.node 0x205B4ADD97 (.leaf 0xFF26) (.leaf 0xFF27)) (.node 0x205B4ADF97 (.leaf 0xFF28) (.leaf 0xFF29))) (.node 0x205B4AE297 (.node 0x205B4AE197 (.leaf 0xFF2A) (.leaf 0xFF2B)) (.node 0x205B4AE397 (.leaf 0xFF2C) (.leaf 0xFF2D))))) (.node 0x205B4AEB97 (.node 0x205B4AE797 (.node 0x205B4AE597 (.leaf 0xFF2E) (.node 0x205B4AE697 (.leaf 0xFF2F) (.leaf 0xFF30))) (.node 0x205B4AE997 (.node 0x205B4AE897 (.leaf 0xFF31) (.leaf 0xFF32)) (.node 0x205B4AEA97 (.leaf 0xFF33) (.leaf 0xFF34)))) (.node 0x205B4AEF97 (.node 0x205B4AED97 (.node 0x205B4AEC97 (.leaf 0xFF35) (.leaf 0xFF36)) (.node 0x205B4AEE97 (.leaf 0xFF37) (.leaf 0xFF38))) (.node 0x205CE23CAC (.node 0x205B4AF097 (.leaf 0xFF39) (.leaf 0xFF3A)) (.node 0x205DE2138D (.leaf 0x1F32D) (.leaf 0x124F2)))))
def nameTree_275 : NameTree := .node 0x20868F6A5C (.node 0x20857BFDC2 (.node 0x207F14A6D3 (.node 0x207D424F84 (.leaf 0x1E2E) (.leaf 0x2A03)) (.node 0x2083710BED (.leaf 0x1240F) (.leaf 0x1685A))) (.node 0x2085D12D9C (.node 0x2085C82F4F (.leaf 0x4DC2) (.leaf 0x1D7B4)) (.node 0x2085FF0788 (.leaf 0x1D7AC) (.leaf 0x346)))) (.node 0x208C835A93 (.node 0x2086A0805C (.node 0x2086996A5C (.leaf 0x12138) (.leaf 0x1213E)) (.node 0x2088D42EF8 (.leaf 0x1237D) (.leaf 0x1D7B3))) (.node 0x2098B0116B (.node 0x2093886393 (.leaf 0x10395) (.leaf 0x1038C)) (.node 0x2098B8156B (.leaf 0x12506) (.leaf 0x12508))))
def nameTree_276 : NameTree := .node 0x20792A5AF5 (.node 0x20673F9DD7 (.node 0x206498BE15 (.node 0x2060F0B949 (.leaf 0x20D7) (.node 0x206448C1AE (.leaf 0xDA) (.leaf 0x25B9))) (.node 0x206638443C (.node 0x2064E84850 (.leaf 0x115A) (.leaf 0x1F3A9)) (.node 0x2066E8B9F1 (.leaf 0x1F5DD) (.leaf 0x1D154)))) (.node 0x206EF06278 (.node 0x206C342100 (.node 0x206925DFEF (.leaf 0x1E014) (.leaf 0x2627)) (.node 0x206D4C011D (.leaf 0x25C5) (.leaf 0x23B7))) (.node 0x2078B69431 (.node 0x2077F9E9BA (.leaf 0x1D805) (.leaf 0x1D7C9)) (.node 0x2078BC9A31 (.leaf 0x111BB) (.leaf 0x111B9))))) (nameTree_275)
def nameTree_277 : NameTree := .node 0x21019DEAD7 (.node 0x20F532D2C9 (.node 0x20F14C0A5C (.node 0x20ED08BA7B (.leaf 0xFCE0) (.leaf 0x29B9)) (.node 0x20F4C5B949 (.leaf 0x1F920) (.leaf 0x179))) (.node 0x20F9686F5E (.node 0x20F5655E2C (.leaf 0x26C5) (.leaf 0x1D088)) (.node 0x21006C04ED (.leaf 0x1C5) (.leaf 0x168DC)))) (.node 0x211EFE6317 (.node 0x2112FF388F (.node 0x210B47CC40 (.leaf 0x2089) (.leaf 0x1F3C1)) (.node 0x21187FF36C (.leaf 0x2E11) (.leaf 0x1D7F))) (.node 0x2127211FB3 (.node 0x211EFE6417 (.leaf 0x12205) (.leaf 0x12206)) (.node 0x2129EC1ACA (.leaf 0x1CEF) (.leaf 0xDDA))))
def nameTree_278 : NameTree := .node 0x20E83AFE96 (.node 0x20B6B79CE7 (.node 0x20990AE9FC (.node 0x2098B9146B (.leaf 0x12509) (.node 0x209903E1FC (.leaf 0x1250A) (.leaf 0x1250F))) (.node 0x209C12B949 (.node 0x209911E4FC (.leaf 0x12512) (.leaf 0x12515)) (.node 0x20B68BEE60 (.leaf 0x1E82) (.leaf 0x1FE3)))) (.node 0x20C44C662C (.node 0x20B8816315 (.node 0x20B8647F14 (.leaf 0xA750) (.leaf 0x25AF)) (.node 0x20B9F1EEA4 (.leaf 0xFF64) (.leaf 0x7C3))) (.node 0x20D734B949 (.node 0x20D6A04196 (.leaf 0x697) (.leaf 0xA8FB)) (.node 0x20D849BE34 (.leaf 0xDD) (.leaf 0x16F8F))))) (nameTree_277)
def nameTree_279 : NameTree := .node 0x214B49504E (.node 0x21468D4DF2 (.node 0x21468D4BF2 (.node 0x21468D4AF2 (.leaf 0x13180) (.leaf 0x13181)) (.node 0x21468D4CF2 (.leaf 0x13182) (.leaf 0x13183))) (.node 0x21468D4FF2 (.node 0x21468D4EF2 (.leaf 0x13184) (.leaf 0x13186)) (.node 0x214B44534E (.leaf 0x13187) (.leaf 0x1228C)))) (.node 0x21543D5FE3 (.node 0x214ECD944A (.node 0x214D625BED (.leaf 0x1228D) (.leaf 0x1684A)) (.node 0x21543D5BE3 (.leaf 0x1F63E) (.leaf 0x3042))) (.node 0x21543D68E3 (.node 0x21543D63E3 (.leaf 0x3048) (.leaf 0x3044)) (.node 0x21543D69E3 (.leaf 0x3093) (.leaf 0x304A))))
def nameTree_280 : NameTree := .node 0x21468D49F2 (.node 0x2136411C32 (.node 0x212DEB76C8 (.node 0x212B482CD8 (.leaf 0x1E78) (.node 0x212CFAA826 (.leaf 0xA980) (.leaf 0x1F3D9))) (.node 0x21353A62A9 (.node 0x21309387B9 (.leaf 0x10750) (.leaf 0x1F794)) (.node 0x213576F151 (.leaf 0x1D7A1) (.leaf 0x1EFC)))) (.node 0x213C3D38C6 (.node 0x213968EC7E (.node 0x21365116F3 (.leaf 0x1D13E) (.leaf 0x1D108)) (.node 0x213BC3EAA5 (.leaf 0xFCE4) (.leaf 0xFB8D))) (.node 0x2144C00AC1 (.node 0x213CACCC0E (.leaf 0xFDA) (.leaf 0x2341)) (.node 0x21468D48F2 (.leaf 0x1D9E8) (.leaf 0x1317F))))) (nameTree_279)
def nameTree_281 : NameTree := .node 0x2188F17F1A (.node 0x2188F1771A (.node 0x2188F1731A (.node 0x2188F1711A (.leaf 0x138A) (.leaf 0x1D49C)) (.node 0x2188F1741A (.leaf 0x1D49E) (.leaf 0x1D49F))) (.node 0x2188F17B1A (.node 0x2188F17A1A (.leaf 0x1D4A2) (.leaf 0x1D4A5)) (.node 0x2188F17E1A (.leaf 0x1D4A6) (.leaf 0x1D4A9)))) (.node 0x2188F1841A (.node 0x2188F1811A (.node 0x2188F1801A (.leaf 0x1D4AA) (.leaf 0x1D4AB)) (.node 0x2188F1831A (.leaf 0x1D4AC) (.leaf 0x1D4AE))) (.node 0x2188F1861A (.node 0x2188F1851A (.leaf 0x1D4AF) (.leaf 0x1D4B0)) (.node 0x2188F1871A (.leaf 0x1D4B1) (.leaf 0x1D4B2))))
def nameTree_282 : NameTree := .node 0x2183F33B2D (.node 0x216CB54131 (.node 0x215E3E56FF (.node 0x21552B7A5D (.leaf 0x3046) (.node 0x2159D384AB (.leaf 0x248D) (.leaf 0x1A2E))) (.node 0x2166BAFFCA (.node 0x21669A9F5F (.leaf 0x596) (.leaf 0x2CCF)) (.node 0x216934D76F (.leaf 0x1F865) (.leaf 0xFD30)))) (.node 0x217214A4C9 (.node 0x216F1A3788 (.node 0x216D7D9655 (.leaf 0x1F385) (.leaf 0x1F736)) (.node 0x216FFFF9C8 (.leaf 0x5AA) (.leaf 0xA9DF))) (.node 0x217921A3DA (.node 0x217596855C (.leaf 0x12410) (.leaf 0x12142)) (.node 0x217E96865C (.leaf 0x1D023) (.leaf 0x12153))))) (nameTree_281)
def nameTree_283 : NameTree := .node 0x21F24C1B7F (.node 0x21EF4D1E3B (.node 0x21EC047ED0 (.node 0x21E5E37D7A (.leaf 0x1EAE) (.leaf 0xFDB2)) (.node 0x21EC71B420 (.leaf 0x200B) (.leaf 0xFE4E))) (.node 0x21F0AD4D52 (.node 0x21EFCA4CDA (.leaf 0x1F506) (.leaf 0x1D03A)) (.node 0x21F0B54D52 (.leaf 0x10904) (.leaf 0x10910)))) (.node 0x21FC140AEE (.node 0x21F975F88E (.node 0x21F6F322F2 (.leaf 0x2754) (.leaf 0x2191)) (.node 0x21FB5FF8E8 (.leaf 0x10092) (.leaf 0x168CC))) (.node 0x21FDAAD781 (.node 0x21FC1416EE (.leaf 0xAAED) (.leaf 0xAAEF)) (.node 0x2204F66653 (.leaf 0x1D17A) (.leaf 0x1F918))))
def nameTree_284 : NameTree := .node 0x21D46B4AA6 (.node 0x21AB710532 (.node 0x21900BB21D (.node 0x2188F1891A (.leaf 0x1D4B3) (.node 0x2188F18A1A (.leaf 0x1D4B4) (.leaf 0x1D4B5))) (.node 0x21A45F4BED (.node 0x219CC05D07 (.leaf 0x1D01E) (.leaf 0x1018D)) (.node 0x21A51D1116 (.leaf 0x16886) (.leaf 0x1F502)))) (.node 0x21B56005ED (.node 0x21B36F4FED (.node 0x21AEF4F88B (.leaf 0x101EE) (.leaf 0x7C8)) (.node 0x21B397DE13 (.leaf 0x1686E) (.leaf 0x1F936))) (.node 0x21C5E2CE9D (.node 0x21B9D6C47C (.leaf 0x1685E) (.leaf 0xFC8F)) (.node 0x21CCCFA896 (.leaf 0x1F5DE) (.leaf 0x1CC3))))) (nameTree_283)
def nameTree_285 : NameTree := .node 0x22468D4EF2 (.node 0x22468D4AF2 (.node 0x22468D48F2 (.node 0x224138DF10 (.leaf 0x2291) (.leaf 0x1F006)) (.node 0x22468D49F2 (.leaf 0x13188) (.leaf 0x13189))) (.node 0x22468D4CF2 (.node 0x22468D4BF2 (.leaf 0x1318A) (.leaf 0x1318B)) (.node 0x22468D4DF2 (.leaf 0x1318C) (.leaf 0x1318E)))) (.node 0x22468E48F2 (.node 0x22468D50F2 (.node 0x22468D4FF2 (.leaf 0x1318F) (.leaf 0x13190)) (.node 0x22468E47F2 (.leaf 0x13191) (.leaf 0x13193))) (.node 0x22468E4AF2 (.node 0x22468E49F2 (.leaf 0x13195) (.leaf 0x13197)) (.node 0x22468E4BF2 (.leaf 0x13198) (.leaf 0x13199))))
def nameTree_286 : NameTree := .node 0x223FBA9D56 (.node 0x2222FEDA17 (.node 0x2215939687 (.node 0x22087C3F66 (.leaf 0x168A1) (.node 0x2210CAC5AD (.leaf 0xA762) (.leaf 0x1110F))) (.node 0x221B140C38 (.node 0x221AA3C9D9 (.leaf 0x214A) (.leaf 0x1F340)) (.node 0x221DB9FBC0 (.leaf 0xFCF4) (.leaf 0x7C0)))) (.node 0x223C37DCA0 (.node 0x223295FA96 (.node 0x222A99A13C (.leaf 0x2031) (.leaf 0x2B82)) (.node 0x2234A6FEEA (.leaf 0x102B) (.leaf 0xA6F2))) (.node 0x223E56E2C7 (.node 0x223E31AD68 (.leaf 0x23E6) (.leaf 0x710)) (.node 0x223FA7339B (.leaf 0x10A54) (.leaf 0x1D998))))) (nameTree_285)
def nameTree_287 : NameTree := .node 0x22580F8E60 (.node 0x22577BB960 (.node 0x2257230660 (.node 0x2257057560 (.leaf 0x1A1) (.leaf 0x1A5)) (.node 0x22575E2860 (.leaf 0x2A0) (.leaf 0x282))) (.node 0x2257B6DB60 (.node 0x22579C4D60 (.leaf 0x1AD) (.leaf 0x1B0)) (.node 0x2257D46C60 (.leaf 0x28B) (.leaf 0x2C73)))) (.node 0x22655CF6ED (.node 0x226039FA2C (.node 0x22582D1F60 (.leaf 0x1B4) (.leaf 0x225)) (.node 0x2264C4B4F5 (.leaf 0xFBE1) (.leaf 0x1F9D6))) (.node 0x22728CC064 (.node 0x2265D3B84E (.leaf 0x1692E) (.leaf 0x1F6C4)) (.node 0x2273EF372D (.leaf 0x1F70D) (.leaf 0x131B))))
def nameTree_288 : NameTree := .node 0x2256EAE760 (.node 0x2255678760 (.node 0x22525FA5ED (.node 0x22488F63F1 (.leaf 0x1319A) (.node 0x2249EDD16B (.leaf 0x1DA3F) (.leaf 0x23D9))) (.node 0x2252625BED (.node 0x22526207ED (.leaf 0x16917) (.leaf 0x1690C)) (.node 0x22534A683B (.leaf 0x16923) (.leaf 0x19D7)))) (.node 0x2255FB5C60 (.node 0x2255A2A960 (.node 0x2255851860 (.leaf 0x253) (.leaf 0x188)) (.node 0x2255DDCB60 (.leaf 0x257) (.leaf 0x192))) (.node 0x225671A060 (.node 0x225618ED60 (.leaf 0x260) (.leaf 0x266)) (.node 0x2256ACC260 (.leaf 0x199) (.leaf 0x271))))) (nameTree_287)
def nameTree_289 : NameTree := .node 0x1F47A59BE2 (.node 0x1F3DB197E2 (.node 0x1F37A59FE2 (.node 0x1F33B199E2 (.node 0x1F0F3016CC (nameTree_232) (nameTree_234)) (.node 0x1F34B59BE2 (nameTree_236) (nameTree_238))) (.node 0x1F39B490E2 (.node 0x1F38B199E2 (nameTree_239) (nameTree_241)) (.node 0x1F3C9D97E2 (nameTree_243) (nameTree_245)))) (.node 0x1F43AE96E2 (.node 0x1F3FAE96E2 (.node 0x1F3EB59FE2 (nameTree_246) (nameTree_248)) (.node 0x1F41B19FE2 (nameTree_250) (nameTree_252))) (.node 0x1F468D48F2 (.node 0x1F44AF8CE2 (nameTree_253) (nameTree_255)) (.node 0x1F469049F2 (nameTree_257) (nameTree_259))))) (.node 0x20593140FE (.node 0x1FA29E0104 (.node 0x1F4BA597E2 (.node 0x1F49B599E2 (nameTree_260) (nameTree_262)) (.node 0x1F70EF372D (nameTree_264) (nameTree_266))) (.node 0x2033A80D59 (.node 0x1FB03381A5 (nameTree_267) (nameTree_269)) (.node 0x20468F50F2 (nameTree_271) (nameTree_273)))) (.node 0x21543D6FE3 (.node 0x2098B9026B (.node 0x205E168B31 (nameTree_274) (nameTree_276)) (.node 0x212A81E4B1 (nameTree_278) (nameTree_280))) (.node 0x22055B4FED (.node 0x2188F1881A (nameTree_282) (nameTree_284)) (.node 0x22468E4CF2 (nameTree_286) (nameTree_288)))))
def nameTree_290 : NameTree := .node 0x2277B017AC (.node 0x2277AF19AC (.node 0x2274053F2D (.node 0x227405372D (.leaf 0x131C) (.node 0x2274053B2D (.leaf 0x2D93) (.leaf 0x2D96))) (.node 0x2277AF17AC (.node 0x22778477D2 (.leaf 0x2D94) (.leaf 0x81A)) (.node 0x2277AF18AC (.leaf 0x1D209) (.leaf 0x1D20A)))) (.node 0x2277AF1DAC (.node 0x2277AF1BAC (.node 0x2277AF1AAC (.leaf 0x1D20B) (.leaf 0x1D20C)) (.node 0x2277AF1CAC (.leaf 0x1D20D) (.leaf 0x1D20E))) (.node 0x2277AF1FAC (.node 0x2277AF1EAC (.leaf 0x1D20F) (.leaf 0x1D210)) (.node 0x2277AF20AC (.leaf 0x1D211) (.leaf 0x1D212))))) (.node 0x2277B319AC (.node 0x2277B01AAC (.node 0x2277B018AC (.leaf 0x1D213) (.node 0x2277B019AC (.leaf 0x1D214) (.leaf 0x1D215))) (.node 0x2277B317AC (.node 0x2277B01BAC (.leaf 0x1D216) (.leaf 0x1D217)) (.node 0x2277B318AC (.leaf 0x1D218) (.leaf 0x1D219)))) (.node 0x227F10A336 (.node 0x2277B31BAC (.node 0x2277B31AAC (.leaf 0x1D21A) (.leaf 0x1D21B)) (.node 0x2279AC14A8 (.leaf 0x1D21C) (.leaf 0x63D))) (.node 0x22827CBC50 (.node 0x2280A7B0F0 (.leaf 0xA765) (.leaf 0x298B)) (.node 0x2282F0D78A (.leaf 0x1F71B) (.leaf 0x30B)))))
def nameTree_291 : NameTree := .node 0x2295D0493A (.node 0x2294D34A3A (.node 0x2294D3403A (.node 0x2294D33C3A (.leaf 0xA514) (.leaf 0xA55C)) (.node 0x2294D3443A (.leaf 0xA5F5) (.leaf 0xA535))) (.node 0x2294DA4A3A (.node 0x2294D3503A (.leaf 0xA5CD) (.leaf 0xA5A6)) (.node 0x229578D5AD (.leaf 0xA585) (.leaf 0xABD)))) (.node 0x2297CD403A (.node 0x2296DA4A3A (.node 0x2296D0403A (.leaf 0xA501) (.leaf 0xA50C)) (.node 0x2297CD3C3A (.leaf 0xA57D) (.leaf 0xA557))) (.node 0x2297CD4A3A (.node 0x2297CD443A (.leaf 0xA5EF) (.leaf 0xA530)) (.node 0x2297CD503A (.leaf 0xA5C7) (.leaf 0xA5A1))))
def nameTree_292 : NameTree := .node 0x2294D0403A (.node 0x2292D33C3A (.node 0x2285F33B2D (.node 0x2283F33B2D (.leaf 0x1313) (.node 0x2285EF372D (.leaf 0x1314) (.leaf 0x2DDB))) (.node 0x228BDD3148 (.node 0x228BACF47B (.leaf 0x2DDC) (.leaf 0x1F81C)) (.node 0x2292D0403A (.leaf 0xFDA0) (.leaf 0xA507)))) (.node 0x2292D3503A (.node 0x2292D3443A (.node 0x2292D3403A (.leaf 0xA551) (.leaf 0xA5E9)) (.node 0x2292D34A3A (.leaf 0xA52B) (.leaf 0xA5C2))) (.node 0x2293D0403A (.node 0x2292DA4A3A (.leaf 0xA59C) (.leaf 0xA578)) (.node 0x2293DA4A3A (.leaf 0xA51A) (.leaf 0xA58B))))) (nameTree_291)
def nameTree_293 : NameTree := .node 0x229DCD3C3A (.node 0x229BDB503A (.node 0x229BDB443A (.node 0x229BDB403A (.leaf 0xA554) (.leaf 0xA5EC)) (.node 0x229BDB4A3A (.leaf 0xA52E) (.leaf 0xA5C5))) (.node 0x229CDA4A3A (.node 0x229CD0403A (.leaf 0xA59F) (.leaf 0xA512)) (.node 0x229D8A691C (.leaf 0xA583) (.leaf 0x2570)))) (.node 0x229DCD503A (.node 0x229DCD443A (.node 0x229DCD403A (.leaf 0xA553) (.leaf 0xA5EB)) (.node 0x229DCD4A3A (.leaf 0xA52D) (.leaf 0xA5C4))) (.node 0x229DDA4A3A (.node 0x229DD0403A (.leaf 0xA59E) (.leaf 0xA521)) (.node 0x229ECF3C3A (.leaf 0xA592) (.leaf 0xA561))))
def nameTree_294 : NameTree := .node 0x229BDB3C3A (.node 0x2298DA493A (.node 0x2298CC493A (.node 0x2297D0493A (.leaf 0xA520) (.node 0x2297DA4A3A (.leaf 0xA607) (.leaf 0xA591))) (.node 0x2298D0493A (.node 0x2298D0403A (.leaf 0xA54D) (.leaf 0xA502)) (.node 0x2298D4493A (.leaf 0xA5E5) (.leaf 0xA527)))) (.node 0x229ADA4A3A (.node 0x2298E0493A (.node 0x2298DA4A3A (.leaf 0xA5BE) (.leaf 0xA573)) (.node 0x229AD0403A (.leaf 0xA598) (.leaf 0xA51B))) (.node 0x229BD0403A (.node 0x229BCC493A (.leaf 0xA58C) (.leaf 0xA56B)) (.node 0x229BDA4A3A (.leaf 0xA51E) (.leaf 0xA58F))))) (nameTree_293)
def nameTree_295 : NameTree := .node 0x22A3D0403A (.node 0x22A0DA4A3A (.node 0x22A078CEAF (.node 0x229FDA493A (.leaf 0xA5B9) (.leaf 0xA572)) (.node 0x22A0D0403A (.leaf 0x1F503) (.leaf 0xA505))) (.node 0x22A2D0403A (.node 0x22A1804CD0 (.leaf 0xA576) (.leaf 0x1216A)) (.node 0x22A2DA4A3A (.leaf 0xA513) (.leaf 0xA584)))) (.node 0x22A3D34A3A (.node 0x22A3D3403A (.node 0x22A3D33C3A (.leaf 0xA516) (.leaf 0xA563)) (.node 0x22A3D3443A (.leaf 0xA5FC) (.leaf 0xA53C))) (.node 0x22A3DA4A3A (.node 0x22A3D3503A (.leaf 0xA5D4) (.leaf 0xA5AD)) (.node 0x22A4D0403A (.leaf 0xA587) (.leaf 0xA50E))))
def nameTree_296 : NameTree := .node 0x229EE4503A (.node 0x229ED5443A (.node 0x229ECF503A (.node 0x229ECF443A (.leaf 0xA5FA) (.node 0x229ECF4A3A (.leaf 0xA53A) (.leaf 0xA5D2))) (.node 0x229ED53C3A (.node 0x229ED0403A (.leaf 0xA5AB) (.leaf 0xA522)) (.node 0x229ED5403A (.leaf 0xA568) (.leaf 0xA601)))) (.node 0x229EE43C3A (.node 0x229ED5503A (.node 0x229ED54A3A (.leaf 0xA541) (.leaf 0xA5D9)) (.node 0x229EDA4A3A (.leaf 0xA5B2) (.leaf 0xA593))) (.node 0x229EE4443A (.node 0x229EE4403A (.leaf 0xA570) (.leaf 0xA60A)) (.node 0x229EE44A3A (.leaf 0xA548) (.leaf 0xA5E0))))) (nameTree_295)
def nameTree_297 : NameTree := .node 0x22A95FA2ED (.node 0x22A6DA4A3A (.node 0x22A4D34A3A (.node 0x22A4D3403A (.leaf 0xA55B) (.node 0x22A4D3443A (.leaf 0xA5F4) (.leaf 0xA534))) (.node 0x22A4DA4A3A (.node 0x22A4D3503A (.leaf 0xA5CC) (.leaf 0xA5A5)) (.node 0x22A6D0403A (.leaf 0xA57F) (.leaf 0xA50D)))) (.node 0x22A7D4493A (.node 0x22A7D0403A (.node 0x22A7CC493A (.leaf 0xA57E) (.leaf 0xA54F)) (.node 0x22A7D0493A (.leaf 0xA503) (.leaf 0xA5E7))) (.node 0x22A7DA4A3A (.node 0x22A7DA493A (.leaf 0xA529) (.leaf 0xA5C0)) (.node 0x22A7E0493A (.leaf 0xA574) (.leaf 0xA59A))))) (.node 0x22AAD33C3A (.node 0x22A96414ED (.node 0x22A960589B (.leaf 0x169B3) (.node 0x22A9625EED (.leaf 0x169F1) (.leaf 0x1699C))) (.node 0x22A9DA4A3A (.node 0x22A9D0403A (.leaf 0x169CF) (.leaf 0xA51D)) (.node 0x22AAD0403A (.leaf 0xA58E) (.leaf 0xA518)))) (.node 0x22AAD3503A (.node 0x22AAD3443A (.node 0x22AAD3403A (.leaf 0xA565) (.leaf 0xA5FE)) (.node 0x22AAD34A3A (.leaf 0xA53E) (.leaf 0xA5D6))) (.node 0x22AB5827FF (.node 0x22AADA4A3A (.leaf 0xA5AF) (.leaf 0xA589)) (.node 0x22AD7D6D46 (.leaf 0x1250B) (.leaf 0x1E74)))))
def nameTree_298 : NameTree := .node 0x232B962076 (.node 0x230C651CE9 (.node 0x22FAA8BEC9 (.node 0x22FA49CC1B (.leaf 0x5D4) (.leaf 0x5E4)) (.node 0x2309580B4A (.leaf 0x111C3) (.leaf 0x2005))) (.node 0x231C52CD2E (.node 0x2310CAC5AD (.leaf 0x1D803) (.leaf 0x11108)) (.node 0x232B66EC79 (.leaf 0x21BF) (.leaf 0x1D018)))) (.node 0x23389554FB (.node 0x232F153EC5 (.node 0x232E98B453 (.leaf 0x1D84E) (.leaf 0x1F57B)) (.node 0x23330DE528 (.leaf 0x2BBE) (.leaf 0x2B39))) (.node 0x23480B64C0 (.node 0x2340573F7E (.leaf 0x1DA50) (.leaf 0xFE20)) (.node 0x2348AA4DD0 (.leaf 0x2AD7) (.leaf 0x1D8E7))))
def nameTree_299 : NameTree := .node 0x22FA41CC1B (.node 0x22D69A3D5B (.node 0x22D028570A (.node 0x22BB74ED6C (.leaf 0xF05) (.node 0x22C5D5694B (.leaf 0x2C10) (.leaf 0xFD0D))) (.node 0x22D5B60933 (.node 0x22D10EEB0D (.leaf 0x1BB) (.leaf 0x2B8B)) (.node 0x22D5BD0455 (.leaf 0x11CC) (.leaf 0x1F675)))) (.node 0x22F065DF2F (.node 0x22D7B6D9C7 (.node 0x22D768A64D (.leaf 0x1360) (.leaf 0x2AD)) (.node 0x22DB9C7F81 (.leaf 0x11A0A) (.leaf 0xABE9))) (.node 0x22F3CCA71E (.node 0x22F2E751DB (.leaf 0x1070) (.leaf 0xFE27)) (.node 0x22FA3D4ECD (.leaf 0xFE4A) (.leaf 0x1F3F))))) (nameTree_298)
def nameTree_300 : NameTree := .node 0x237EE438F8 (.node 0x2374F33B2D (.node 0x23729A6C5C (.node 0x23729A6A5C (.leaf 0x12193) (.leaf 0x1219A)) (.node 0x2374EF372D (.leaf 0x1219B) (.leaf 0x1213))) (.node 0x23796F0F87 (.node 0x237505372D (.leaf 0x1214) (.leaf 0x1217)) (.node 0x237AA0805C (.leaf 0xFB50) (.leaf 0x121A7)))) (.node 0x2391FD17AB (.node 0x238857881C (.node 0x2382F819DF (.leaf 0x2A9A) (.leaf 0x32A)) (.node 0x238B043B2F (.leaf 0x1FE0) (.leaf 0x234E))) (.node 0x239B87651E (.node 0x239546962F (.leaf 0x1D819) (.leaf 0x2981)) (.node 0x23A28D8067 (.leaf 0xFD9A) (.leaf 0x2C9E))))
def nameTree_301 : NameTree := .node 0x2372916D5C (.node 0x23643BF4A3 (.node 0x235E15FA0D (.node 0x235A3B98BE (.leaf 0x1D78D) (.node 0x235B0F9D88 (.leaf 0x1E004) (.leaf 0x20EF))) (.node 0x2361B63F7B (.node 0x235E44F1A3 (.leaf 0x1AB1) (.leaf 0x59C)) (.node 0x2363E6544E (.leaf 0xFF5D) (.leaf 0x2195)))) (.node 0x2369878336 (.node 0x23690F406A (.node 0x2364FF0AA7 (.leaf 0x5A5) (.leaf 0xFD3E)) (.node 0x2369738336 (.leaf 0x23EF) (.leaf 0x1B77))) (.node 0x2372916B5C (.node 0x2372916A5C (.leaf 0x1B76) (.leaf 0x12190)) (.node 0x2372916C5C (.leaf 0x12191) (.leaf 0x12192))))) (nameTree_300)
def nameTree_302 : NameTree := .node 0x23E7BA317C (.node 0x23E7BA2D7C (.node 0x23E7BA2A7C (.node 0x23E7BA297C (.leaf 0x2204) (.leaf 0x1BC41)) (.node 0x23E7BA2C7C (.leaf 0x1BC07) (.leaf 0x1BC08))) (.node 0x23E7BA2F7C (.node 0x23E7BA2E7C (.leaf 0x1BC47) (.leaf 0x1BC04)) (.node 0x23E7BA307C (.leaf 0x1BC0A) (.leaf 0x1BC00)))) (.node 0x23E7BA357C (.node 0x23E7BA337C (.node 0x23E7BA327C (.leaf 0x1BC46) (.leaf 0x1BC1B)) (.node 0x23E7BA347C (.leaf 0x1BC05) (.leaf 0x1BC06))) (.node 0x23E7BA377C (.node 0x23E7BA367C (.leaf 0x1BC19) (.leaf 0x1BC1A)) (.node 0x23E7BA387C (.leaf 0x1BC44) (.leaf 0x1BC02))))
def nameTree_303 : NameTree := .node 0x23E7B7A804 (.node 0x23CD7CACAC (.node 0x23B6F0B1EA (.node 0x23ABABCD53 (.leaf 0x1D011) (.node 0x23B1826291 (.leaf 0xB1) (.leaf 0x1F7D1))) (.node 0x23BBA59082 (.node 0x23B7BFDD7F (.leaf 0x1249D) (.leaf 0xBB)) (.node 0x23BD24417F (.leaf 0x1D8DB) (.leaf 0x1123C)))) (.node 0x23D726B82E (.node 0x23D177BFAC (.node 0x23CE947097 (.leaf 0xED1) (.leaf 0x5C5)) (.node 0x23D285B6AC (.leaf 0xED6) (.leaf 0xED2))) (.node 0x23DFCDF4DA (.node 0x23DF3958F3 (.leaf 0x27FD) (.leaf 0x2C6D)) (.node 0x23E132FD46 (.leaf 0x1F54A) (.leaf 0x1EE4E))))) (nameTree_302)
def nameTree_304 : NameTree := .node 0x241A729F4C (.node 0x23EECB7D4C (.node 0x23E7BA3D7C (.node 0x23E7BA3B7C (.leaf 0x1BC0B) (.node 0x23E7BA3C7C (.leaf 0x1BC1C) (.leaf 0x1BC03))) (.node 0x23E7BA3F7C (.node 0x23E7BA3E7C (.leaf 0x1BC51) (.leaf 0x1BC09)) (.node 0x23E7BA407C (.leaf 0x1BC38) (.leaf 0x1BC01)))) (.node 0x241984954C (.node 0x24088CBFBE (.node 0x23F85BD9AA (.leaf 0x1F7CF) (.leaf 0x33E)) (.node 0x2419737F4C (.leaf 0xC3) (.leaf 0x12016))) (.node 0x241A72914C (.node 0x2419DE4F24 (.leaf 0x12038) (.leaf 0x11300)) (.node 0x241A72994C (.leaf 0x12041) (.leaf 0x12044))))) (.node 0x241C7A9B4C (.node 0x241C729A4C (.node 0x241A869F4C (.leaf 0x12047) (.node 0x241C72944C (.leaf 0x12053) (.leaf 0x12056))) (.node 0x241C7A8F4C (.node 0x241C729F4C (.leaf 0x1206E) (.leaf 0x1206F)) (.node 0x241C7A9A4C (.leaf 0x12073) (.leaf 0x12074)))) (.node 0x241C869B4C (.node 0x241C86944C (.node 0x241C868F4C (.leaf 0x12077) (.leaf 0x1207E)) (.node 0x241C86954C (.leaf 0x12081) (.leaf 0x12083))) (.node 0x241F727F4C (.node 0x241CFF4E6E (.leaf 0x12084) (.leaf 0x677)) (.node 0x241F72914C (.leaf 0x120B7) (.leaf 0x120F0)))))
def nameTree_305 : NameTree := .node 0x242386804C (.node 0x242372984C (.node 0x2423727F4C (.node 0x242369637E (.leaf 0x12156) (.leaf 0xABCC)) (.node 0x2423728F4C (.leaf 0x1218D) (.leaf 0x1218F))) (.node 0x24237A914C (.node 0x242372994C (.leaf 0x12195) (.leaf 0x12197)) (.node 0x24237A9B4C (.leaf 0x121A4) (.leaf 0x121A5)))) (.node 0x2423869B4C (.node 0x242386844C (.node 0x242386814C (.leaf 0x121AC) (.leaf 0x121AD)) (.node 0x242386994C (.leaf 0x121AF) (.leaf 0x121B0))) (.node 0x242472994C (.node 0x2423869F4C (.leaf 0x121B2) (.leaf 0x121B3)) (.node 0x2424729A4C (.leaf 0x121F2) (.leaf 0x121F4))))
def nameTree_306 : NameTree := .node 0x242184954C (.node 0x241F86914C (.node 0x241F729F4C (.node 0x241F729A4C (.leaf 0x120F2) (.node 0x241F729B4C (.leaf 0x120F5) (.leaf 0x120F6))) (.node 0x241F7A944C (.node 0x241F7A814C (.leaf 0x120FB) (.leaf 0x12104)) (.node 0x241F867F4C (.leaf 0x1237C) (.leaf 0x12118)))) (.node 0x242072994C (.node 0x241F869A4C (.node 0x241F86994C (.leaf 0x1211E) (.leaf 0x12122)) (.node 0x241F869F4C (.leaf 0x12123) (.leaf 0x12125))) (.node 0x242178964C (.node 0x2421518E4C (.leaf 0x1212C) (.leaf 0x12140)) (.node 0x24217D7F4C (.leaf 0x12146) (.leaf 0x1214D))))) (nameTree_305)
def nameTree_307 : NameTree := .node 0x2429FEDD5C (.node 0x242872914C (.node 0x24267A9B4C (.node 0x24267A9A4C (.leaf 0x1224E) (.leaf 0x1224F)) (.node 0x2426869B4C (.leaf 0x1238F) (.leaf 0x12263))) (.node 0x2428729D4C (.node 0x2428729B4C (.leaf 0x1227B) (.leaf 0x1227C)) (.node 0x2428E6B3C9 (.leaf 0x1227D) (.leaf 0x1CDC)))) (.node 0x242B729F4C (.node 0x242B72944C (.node 0x242A728F4C (.leaf 0x1F618) (.leaf 0x12290)) (.node 0x242B72994C (.leaf 0x12295) (.leaf 0x122A9))) (.node 0x242B79924C (.node 0x242B798E4C (.leaf 0x122AC) (.leaf 0x122AD)) (.node 0x242B79A24C (.leaf 0x122BA) (.leaf 0x122D7))))
def nameTree_308 : NameTree := .node 0x24267A7F4C (.node 0x242572954C (.node 0x242486954C (.node 0x2424867F4C (.leaf 0x121F8) (.node 0x242486804C (.leaf 0x121FD) (.leaf 0x12216))) (.node 0x2424869A4C (.node 0x242486994C (.leaf 0x1221B) (.leaf 0x1221C)) (.node 0x2425727F4C (.leaf 0x1221D) (.leaf 0x12223)))) (.node 0x242586944C (.node 0x242576A04C (.node 0x2425729F4C (.leaf 0x12224) (.leaf 0x12225)) (.node 0x24257A9B4C (.leaf 0x12229) (.leaf 0x1222B))) (.node 0x242672814C (.node 0x2426727F4C (.leaf 0x1222E) (.leaf 0x1223F)) (.node 0x2426729A4C (.leaf 0x1238E) (.leaf 0x12246))))) (nameTree_307)
def nameTree_309 : NameTree := .node 0x243272844C (.node 0x242D8B804C (.node 0x242D83A24C (.node 0x242D83964C (.leaf 0x12334) (.leaf 0x12335)) (.node 0x242D84954C (.leaf 0x12337) (.leaf 0x12351))) (.node 0x242E111D6A (.node 0x242D8BA24C (.leaf 0x1235A) (.leaf 0x1235C)) (.node 0x24324157D9 (.leaf 0x1C8) (.leaf 0x1083)))) (.node 0x24327A8F4C (.node 0x2432767F4C (.node 0x243272944C (.leaf 0x12541) (.leaf 0x12360)) (.node 0x24327A804C (.leaf 0x12362) (.leaf 0x12365))) (.node 0x243286824C (.node 0x24327A944C (.leaf 0x12366) (.leaf 0x12368)) (.node 0x2432869A4C (.leaf 0x1236B) (.leaf 0x1236E))))
def nameTree_310 : NameTree := .node 0x242D83814C (.node 0x242C7A7F4C (.node 0x242B869F4C (.node 0x242B86914C (.leaf 0x122DD) (.node 0x242B869A4C (.leaf 0x122E4) (.leaf 0x122E7))) (.node 0x242C72944C (.node 0x242C728F4C (.leaf 0x122E9) (.leaf 0x122F0)) (.node 0x242C729F4C (.leaf 0x122F3) (.leaf 0x122FB)))) (.node 0x242C869A4C (.node 0x242C7A9F4C (.node 0x242C7A994C (.leaf 0x12397) (.leaf 0x12300)) (.node 0x242C86984C (.leaf 0x12301) (.leaf 0x12307))) (.node 0x242D51A24C (.node 0x242C869F4C (.leaf 0x12308) (.leaf 0x12309)) (.node 0x242D837F4C (.leaf 0x12399) (.leaf 0x1232B))))) (nameTree_309)
def nameTree_311 : NameTree := .node 0x245B74A4D5 (.node 0x24468D4DF2 (.node 0x24468D49F2 (.node 0x24404761BD (.leaf 0x33B) (.node 0x24468D48F2 (.leaf 0x1D701) (.leaf 0x1319B))) (.node 0x24468D4BF2 (.node 0x24468D4AF2 (.leaf 0x1319C) (.leaf 0x1319D)) (.node 0x24468D4CF2 (.leaf 0x1319E) (.leaf 0x1319F)))) (.node 0x2454EAE90D (.node 0x24468D4FF2 (.node 0x24468D4EF2 (.leaf 0x131A0) (.leaf 0x131A1)) (.node 0x2447A8CC9E (.leaf 0x131A2) (.leaf 0x2360))) (.node 0x245808F5A3 (.node 0x24551F8676 (.leaf 0x1D915) (.leaf 0x10E6C)) (.node 0x245A570A87 (.leaf 0x1D9CC) (.leaf 0x1DA13))))) (.node 0x247AA0805C (.node 0x246171FE9A (.node 0x245ED7B8CE (.leaf 0x1E68) (.node 0x246148F847 (.leaf 0x1D155) (.leaf 0x599))) (.node 0x24739FA1EF (.node 0x246CD0F78E (.leaf 0x1F859) (.leaf 0x2246)) (.node 0x24797B4BB8 (.leaf 0xA7AB) (.leaf 0x26DB)))) (.node 0x248AA4EA36 (.node 0x2484D82C97 (.node 0x247ED0BFBE (.leaf 0x121FA) (.leaf 0x1EBC)) (.node 0x24889AD2F9 (.leaf 0x1D7AD) (.leaf 0x1F515))) (.node 0x248E7C9DA0 (.node 0x248AFAF49C (.leaf 0xFCD5) (.leaf 0x1D341)) (.node 0x24947BAAA0 (.leaf 0x108AC) (.leaf 0x108AA)))))
def nameTree_312 : NameTree := .node 0x250AF379AA (.node 0x24F514BFBE (.node 0x24EDC34829 (.node 0x24D4385DB5 (.leaf 0x12467) (.leaf 0xA7B6)) (.node 0x24F1B9E091 (.leaf 0x100AA) (.leaf 0x26C9))) (.node 0x24FC009BDA (.node 0x24FB3451EA (.leaf 0x128) (.leaf 0x100C5)) (.node 0x24FC07CABA (.leaf 0x304) (.leaf 0xFE72)))) (.node 0x252660B931 (.node 0x251A9058D2 (.node 0x2510F1E5EF (.leaf 0x37B) (.leaf 0x279F)) (.node 0x252660B531 (.leaf 0x10169) (.leaf 0xC05))) (.node 0x252660C331 (.node 0x252660BD31 (.leaf 0xC0E) (.leaf 0xC07)) (.node 0x252660C931 (.leaf 0xC12) (.leaf 0xC09))))
def nameTree_313 : NameTree := .node 0x24D1653B27 (.node 0x24A6EECEB8 (.node 0x249B2CAC7A (.node 0x249B2C9F14 (.leaf 0x1D96E) (.node 0x249B2CA5C7 (.leaf 0x1148) (.leaf 0xA977))) (.node 0x249B2CB07F (.node 0x249B2CAD2D (.leaf 0x1143) (.leaf 0xA976)) (.node 0x24A538DC6A (.leaf 0x1144) (.leaf 0xFE87)))) (.node 0x24C856FB10 (.node 0x24B5B5A446 (.node 0x24AC03172D (.leaf 0x1F8A7) (.leaf 0x1F0A0)) (.node 0x24BE8D5ECF (.leaf 0x29FD) (.leaf 0x10AEF))) (.node 0x24CEF09330 (.node 0x24CA6E3EAC (.leaf 0xFDF5) (.leaf 0x1D9F6)) (.node 0x24CFA4DF29 (.leaf 0x16875) (.leaf 0x11668))))) (nameTree_312)
def nameTree_314 : NameTree := .node 0x255D46796F (.node 0x254F4A5F92 (.node 0x25468D4EF2 (.node 0x25468D4DF2 (.leaf 0x131A8) (.leaf 0x131A9)) (.node 0x25468D4FF2 (.leaf 0x131AB) (.leaf 0x131AC))) (.node 0x255A02B54E (.node 0x25552013C8 (.leaf 0x19D3) (.leaf 0x1D78E)) (.node 0x255BDE9219 (.leaf 0x109C) (.leaf 0x11AEA)))) (.node 0x25716C8E55 (.node 0x25625BD0BF (.node 0x255EA58D0E (.leaf 0x63F) (.leaf 0xAB59)) (.node 0x2568D90B06 (.leaf 0x191D) (.leaf 0x1D90))) (.node 0x2576A0805C (.node 0x2572A0805C (.leaf 0x2B5E) (.leaf 0x12226)) (.node 0x25791604D9 (.leaf 0x1238C) (.leaf 0x27D1))))
def nameTree_315 : NameTree := .node 0x25468D4CF2 (.node 0x25423C2CCA (.node 0x2535B2A9EB (.node 0x253536823C (.leaf 0xFE57) (.node 0x2535427A3C (.leaf 0x12485) (.leaf 0x12486))) (.node 0x25406219A7 (.node 0x25366574BC (.leaf 0x1014F) (.leaf 0xFDF9)) (.node 0x2540B6643B (.leaf 0x1E99) (.leaf 0xFEC9)))) (.node 0x25468D48F2 (.node 0x2545C582DA (.node 0x2544369B2B (.leaf 0x1F40A) (.leaf 0x6BB)) (.node 0x25461A5766 (.leaf 0x11100) (.leaf 0x2390))) (.node 0x25468D4AF2 (.node 0x25468D49F2 (.leaf 0x131A3) (.leaf 0x131A4)) (.node 0x25468D4BF2 (.leaf 0x131A6) (.leaf 0x131A7))))) (nameTree_314)
def nameTree_316 : NameTree := .node 0x25AACD4404 (.node 0x25A7F0B4DD (.node 0x25A67ABFBE (.node 0x25A5CD4B04 (.leaf 0x2D1A) (.leaf 0x2D1C)) (.node 0x25A6D34D04 (.leaf 0xD5) (.leaf 0x2D03))) (.node 0x25AAC54404 (.node 0x25A9C54D04 (.leaf 0x16805) (.leaf 0x2D02)) (.node 0x25AAC55104 (.leaf 0x2D20) (.leaf 0x2D24)))) (.node 0x25AEC55204 (.node 0x25ACCD4B04 (.node 0x25AAD34404 (.leaf 0x2D22) (.leaf 0x2D25)) (.node 0x25ADC54D04 (.leaf 0x2D1B) (.leaf 0x2D09))) (.node 0x25B0C55104 (.node 0x25AFC54D04 (.leaf 0x2D0A) (.leaf 0x2D0B)) (.node 0x25B2C55104 (.leaf 0x2D0C) (.leaf 0x2D0E))))
def nameTree_317 : NameTree := .node 0x25A5C54D04 (.node 0x258D683AAD (.node 0x257BF2A840 (.node 0x257B415CAC (.leaf 0x2E21) (.node 0x257BCA3965 (.leaf 0xDEF) (.leaf 0x1D019))) (.node 0x2588E9BFBE (.node 0x2586A0805C (.leaf 0x1D893) (.leaf 0x12232)) (.node 0x258ACEAEFB (.leaf 0xD1) (.leaf 0xE0025)))) (.node 0x259D42C53E (.node 0x259AFB68BF (.node 0x25975B6855 (.leaf 0x22E6) (.leaf 0x1FE1)) (.node 0x259CBDB1BD (.leaf 0x1D818) (.leaf 0x1ED4))) (.node 0x25A3C94D04 (.node 0x25A066695C (.leaf 0x1DA33) (.leaf 0x1D065)) (.node 0x25A4C54D04 (.leaf 0x2D2D) (.leaf 0x2D01))))) (nameTree_316)
def nameTree_318 : NameTree := .node 0x25E9DFAA61 (.node 0x25B8CD4D04 (.node 0x25B4C54404 (.node 0x25B39089EC (.leaf 0x5B3) (.node 0x25B3C55104 (.leaf 0x10B71) (.leaf 0x2D17))) (.node 0x25B6C54D04 (.node 0x25B5C54D04 (.leaf 0x2D10) (.leaf 0x2D11)) (.node 0x25B6C55104 (.leaf 0x2D07) (.leaf 0x2D12)))) (.node 0x25CC0C34E0 (.node 0x25BAC54D04 (.node 0x25BA252362 (.leaf 0x2D05) (.leaf 0x1D32F)) (.node 0x25BCC94D04 (.leaf 0x2D1E) (.leaf 0x2D06))) (.node 0x25E09301E1 (.node 0x25D35A4C7A (.leaf 0x1F850) (.leaf 0x1CE3)) (.node 0x25E8115AC6 (.leaf 0x3EB) (.leaf 0x1D007))))) (.node 0x25FF1DF7DB (.node 0x25F09D2E79 (.node 0x25ECCCA918 (.leaf 0x573) (.node 0x25EF53B355 (.leaf 0x1D04A) (.leaf 0x168FF))) (.node 0x25F55B763C (.node 0x25F20BBD33 (.leaf 0x1D9E5) (.leaf 0x3238)) (.node 0x25F7851B0D (.leaf 0x1F19B) (.leaf 0x1F35C)))) (.node 0x260B1BE749 (.node 0x260296A226 (.node 0x260210B0D2 (.leaf 0x1D93B) (.leaf 0x322F)) (.node 0x260401C0F0 (.leaf 0x1071) (.leaf 0x322C))) (.node 0x260B1BE949 (.node 0x260B1BE849 (.leaf 0x1D41A) (.leaf 0x1D41B)) (.node 0x260B1BEA49 (.leaf 0x1D41C) (.leaf 0x1D41D)))))
def nameTree_319 : NameTree := .node 0x260C204585 (.node 0x260B1BFE49 (.node 0x260B1BFC49 (.node 0x260B1BFB49 (.leaf 0x1D42D) (.leaf 0x1D42E)) (.node 0x260B1BFD49 (.leaf 0x1D42F) (.leaf 0x1D430))) (.node 0x260B1C0049 (.node 0x260B1BFF49 (.leaf 0x1D431) (.leaf 0x1D432)) (.node 0x260C1FA6C6 (.leaf 0x1D433) (.leaf 0x2A2D)))) (.node 0x2616CAC5AD (.node 0x26112D8CC7 (.node 0x260FCAC5AD (.leaf 0xFCC0) (.leaf 0x1110B)) (.node 0x26151267DE (.leaf 0x26AE) (.leaf 0xA67E))) (.node 0x261C031E8F (.node 0x26170CF24B (.leaf 0x11115) (.leaf 0x1F6F5)) (.node 0x261F39D5B1 (.leaf 0x1F899) (.leaf 0x11370))))
def nameTree_320 : NameTree := .node 0x260B1BFA49 (.node 0x260B1BF249 (.node 0x260B1BEE49 (.node 0x260B1BEC49 (.leaf 0x1D41E) (.node 0x260B1BED49 (.leaf 0x1D41F) (.leaf 0x1D420))) (.node 0x260B1BF049 (.node 0x260B1BEF49 (.leaf 0x1D421) (.leaf 0x1D422)) (.node 0x260B1BF149 (.leaf 0x1D423) (.leaf 0x1D424)))) (.node 0x260B1BF649 (.node 0x260B1BF449 (.node 0x260B1BF349 (.leaf 0x1D425) (.leaf 0x1D426)) (.node 0x260B1BF549 (.leaf 0x1D427) (.leaf 0x1D428))) (.node 0x260B1BF849 (.node 0x260B1BF749 (.leaf 0x1D429) (.leaf 0x1D42A)) (.node 0x260B1BF949 (.leaf 0x1D42B) (.leaf 0x1D42C))))) (nameTree_319)
def nameTree_321 : NameTree := .node 0x26468E48F2 (.node 0x26468D4EF2 (.node 0x26468D4CF2 (.node 0x26468D4BF2 (.leaf 0x131B1) (.leaf 0x131B3)) (.node 0x26468D4DF2 (.leaf 0x131B4) (.leaf 0x131B5))) (.node 0x26468D50F2 (.node 0x26468D4FF2 (.leaf 0x131B6) (.leaf 0x131B7)) (.node 0x26468E47F2 (.leaf 0x131B8) (.leaf 0x131B9)))) (.node 0x26468E4CF2 (.node 0x26468E4AF2 (.node 0x26468E49F2 (.leaf 0x131BB) (.leaf 0x131BC)) (.node 0x26468E4BF2 (.leaf 0x131C5) (.leaf 0x131C6))) (.node 0x26468E4EF2 (.node 0x26468E4DF2 (.leaf 0x131C7) (.leaf 0x131C9)) (.node 0x26468E4FF2 (.leaf 0x131CB) (.leaf 0x131CD))))
def nameTree_322 : NameTree := .node 0x26468D4AF2 (.node 0x263663BE23 (.node 0x262A1353A6 (.node 0x2626948162 (.leaf 0x11110) (.node 0x262A1058A6 (.leaf 0x1D860) (.leaf 0x524))) (.node 0x26326F4B83 (.node 0x262D20D3A0 (.leaf 0x188D) (.leaf 0x11739)) (.node 0x2634A31F60 (.leaf 0x11A9F) (.leaf 0x1016E)))) (.node 0x264348A90F (.node 0x2637BF7A45 (.node 0x26377B0813 (.leaf 0x109C8) (.leaf 0x2AC7)) (.node 0x263C4812E2 (.leaf 0x2745) (.leaf 0x1EE82))) (.node 0x26468D48F2 (.node 0x26444D6979 (.leaf 0x2550) (.leaf 0x19D8)) (.node 0x26468D49F2 (.leaf 0x131AD) (.leaf 0x131B0))))) (nameTree_321)
def nameTree_323 : NameTree := .node 0x26469149F2 (.node 0x2646904FF2 (.node 0x2646904DF2 (.node 0x2646904CF2 (.leaf 0x131E3) (.leaf 0x131E4)) (.node 0x2646904EF2 (.leaf 0x131E5) (.leaf 0x131E6))) (.node 0x26469147F2 (.node 0x26469050F2 (.leaf 0x131E7) (.leaf 0x131E8)) (.node 0x26469148F2 (.leaf 0x131E9) (.leaf 0x131EB)))) (.node 0x26509ACB4C (.node 0x2646914BF2 (.node 0x2646914AF2 (.leaf 0x131EC) (.leaf 0x131ED)) (.node 0x264CD7DBE3 (.leaf 0x131EE) (.leaf 0xFB4E))) (.node 0x2656E7E960 (.node 0x2650A10C57 (.leaf 0x2338) (.leaf 0x63B)) (.node 0x2657E0BFBE (.leaf 0xA74D) (.leaf 0x168))))
def nameTree_324 : NameTree := .node 0x2646904BF2 (.node 0x26468F4DF2 (.node 0x26468F49F2 (.node 0x26468F47F2 (.leaf 0x131CE) (.node 0x26468F48F2 (.leaf 0x131CF) (.leaf 0x131D0))) (.node 0x26468F4BF2 (.node 0x26468F4AF2 (.leaf 0x131D1) (.leaf 0x131D3)) (.node 0x26468F4CF2 (.leaf 0x131D4) (.leaf 0x131D6)))) (.node 0x26469047F2 (.node 0x26468F4FF2 (.node 0x26468F4EF2 (.leaf 0x131D7) (.leaf 0x131D8)) (.node 0x26468F50F2 (.leaf 0x131D9) (.leaf 0x131DB))) (.node 0x26469049F2 (.node 0x26469048F2 (.leaf 0x131DC) (.leaf 0x131DD)) (.node 0x2646904AF2 (.leaf 0x131DF) (.leaf 0x131E0))))) (nameTree_323)
def nameTree_325 : NameTree := .node 0x2660C15EB3 (.node 0x2660B85EB3 (.node 0x2660B566B3 (.node 0x26580F9360 (.leaf 0xAFD) (.node 0x2660B55EB3 (.leaf 0x1EFF) (.leaf 0xC06))) (.node 0x2660B65EB3 (.node 0x2660B572B3 (.leaf 0xC10) (.leaf 0xC14)) (.node 0x2660B75EB3 (.leaf 0xC2C) (.leaf 0xC1A)))) (.node 0x2660BD66B3 (.node 0x2660BB5EB3 (.node 0x2660B962B3 (.leaf 0xC26) (.leaf 0xC0F)) (.node 0x2660BC5EB3 (.leaf 0xC17) (.leaf 0xC39))) (.node 0x2660BF5EB3 (.node 0x2660BE5EB3 (.leaf 0xC08) (.leaf 0xC1C)) (.node 0x2660C05EB3 (.leaf 0xC15) (.leaf 0xC32))))) (.node 0x2660C972B3 (.node 0x2660C45EB3 (.node 0x2660C25EB3 (.leaf 0xC2E) (.node 0x2660C36CB3 (.leaf 0xC28) (.leaf 0xC13))) (.node 0x2660C75EB3 (.node 0x2660C65EB3 (.leaf 0xC2A) (.leaf 0xC30)) (.node 0x2660C85EB3 (.leaf 0xC38) (.leaf 0xC24)))) (.node 0x26627AC016 (.node 0x2660CD5EB3 (.node 0x2660CA5EB3 (.leaf 0xC0A) (.leaf 0xC35)) (.node 0x26613D9F6C (.leaf 0xC2F) (.leaf 0x1E017))) (.node 0x2662853333 (.node 0x2662852F33 (.leaf 0x26A8) (.leaf 0x32E9)) (.node 0x2662853733 (.leaf 0x32EC) (.leaf 0x32EA)))))
def nameTree_326 : NameTree := .node 0x2662903333 (.node 0x26628F3733 (.node 0x26628F2F33 (.node 0x26628B4333 (.leaf 0x32E8) (.leaf 0x32E6)) (.node 0x26628F3333 (.leaf 0x32F6) (.leaf 0x32F9))) (.node 0x26628F4333 (.node 0x26628F3D33 (.leaf 0x32F7) (.leaf 0x32FA)) (.node 0x2662902F33 (.leaf 0x32F8) (.leaf 0x32DA)))) (.node 0x2662912F33 (.node 0x2662903D33 (.node 0x2662903733 (.leaf 0x32DD) (.leaf 0x32DB)) (.node 0x2662904333 (.leaf 0x32DE) (.leaf 0x32DC))) (.node 0x2662913733 (.node 0x2662913333 (.leaf 0x32DF) (.leaf 0x32E2)) (.node 0x2662913D33 (.leaf 0x32E0) (.leaf 0x32E3))))
def nameTree_327 : NameTree := .node 0x26628B3D33 (.node 0x26628A2F33 (.node 0x2662883333 (.node 0x2662854333 (.leaf 0x32ED) (.node 0x2662882F33 (.leaf 0x32EB) (.leaf 0x32D5))) (.node 0x2662883D33 (.node 0x2662883733 (.leaf 0x32D8) (.leaf 0x32D6)) (.node 0x2662884333 (.leaf 0x32D9) (.leaf 0x32D7)))) (.node 0x26628A4333 (.node 0x26628A3733 (.node 0x26628A3333 (.leaf 0x32EE) (.leaf 0x32F1)) (.node 0x26628A3D33 (.leaf 0x32EF) (.leaf 0x32F2))) (.node 0x26628B3333 (.node 0x26628B2F33 (.leaf 0x32F0) (.leaf 0x32E4)) (.node 0x26628B3733 (.leaf 0x32E7) (.leaf 0x32E5))))) (nameTree_326)
def nameTree_328 : NameTree := .node 0x268505372D (.node 0x2683F33B2D (.node 0x267EC57B03 (.node 0x267A9B715C (.leaf 0x1E7C) (.leaf 0x12390)) (.node 0x2683EF372D (.leaf 0xFD29) (.leaf 0x12B3))) (.node 0x2684EF372D (.node 0x268454CE7A (.leaf 0x12B4) (.leaf 0x2A84)) (.node 0x2684F33B2D (.leaf 0x12BB) (.leaf 0x12BC)))) (.node 0x2685F33B2D (.node 0x2685053F2D (.node 0x2685053B2D (.leaf 0x12C0) (.leaf 0x12C5)) (.node 0x2685EF372D (.leaf 0x12C2) (.leaf 0x2DCB))) (.node 0x268BAD6A10 (.node 0x26867E695C (.leaf 0x2DCC) (.leaf 0x12262)) (.node 0x268CC1A235 (.leaf 0x3FE) (.leaf 0x1DC2))))
def nameTree_329 : NameTree := .node 0x267571BFBE (.node 0x2662964333 (.node 0x2662943733 (.node 0x2662942F33 (.leaf 0x32E1) (.node 0x2662943333 (.leaf 0x32FB) (.leaf 0x32FD))) (.node 0x2662962F33 (.node 0x2662943D33 (.leaf 0x32FC) (.leaf 0x32FE)) (.node 0x2662963D33 (.leaf 0x32F3) (.leaf 0x32F5)))) (.node 0x266F5D7E44 (.node 0x266BC1FB07 (.node 0x266444C5B0 (.leaf 0x32F4) (.leaf 0x1DB7)) (.node 0x266F518C44 (.leaf 0x1D98D) (.leaf 0xA4FB))) (.node 0x267294795C (.node 0x266F638644 (.leaf 0xA4FC) (.leaf 0xA4F8)) (.node 0x26729A6A5C (.leaf 0x12240) (.leaf 0x12247))))) (nameTree_328)
def nameTree_330 : NameTree := .node 0x2709D30128 (.node 0x27031DFC0D (.node 0x26F837F4BE (.node 0x26F116EA5D (.leaf 0x12520) (.leaf 0x1F836)) (.node 0x27024A0BA3 (.leaf 0x1215A) (.leaf 0x3380))) (.node 0x27079B18A1 (.node 0x27057D1244 (.leaf 0x27EA) (.leaf 0x1B42)) (.node 0x2708456FE4 (.leaf 0x330C) (.leaf 0x334C)))) (.node 0x2709D90128 (.node 0x2709D50128 (.node 0x2709D40128 (.leaf 0x11CA0) (.leaf 0x11C96)) (.node 0x2709D80128 (.leaf 0x11C9C) (.leaf 0x11C94))) (.node 0x2709DC0128 (.node 0x2709DB0128 (.leaf 0x11CAE) (.leaf 0x11C98)) (.node 0x2709DD0128 (.leaf 0x11C92) (.leaf 0x11CAB))))
def nameTree_331 : NameTree := .node 0x26EEADA500 (.node 0x26C43B26D6 (.node 0x26A9DB79D1 (.node 0x2693F8D243 (.leaf 0xA82) (.node 0x2696418855 (.leaf 0x1D18D) (.leaf 0x15F))) (.node 0x26BB80FD29 (.node 0x26B09B83EC (.leaf 0x1F4D0) (.leaf 0x10B68)) (.node 0x26BF92D094 (.leaf 0x2C05) (.leaf 0x7F7)))) (.node 0x26CFF06E7C (.node 0x26CC0AD1EA (.node 0x26CA8CF4EA (.leaf 0x1886) (.leaf 0x1151)) (.node 0x26CE24BFBE (.leaf 0x16899) (.leaf 0x1EF8))) (.node 0x26E20E975F (.node 0x26DAAC7E23 (.leaf 0xFEF2) (.leaf 0x6ED)) (.node 0x26EDB6B9A7 (.leaf 0x1245C) (.leaf 0x1DA66))))) (nameTree_330)
def nameTree_332 : NameTree := .node 0x2725E9DB75 (.node 0x2709EA0128 (.node 0x2709E30128 (.node 0x2709DF0128 (.leaf 0x11CA1) (.node 0x2709E10128 (.leaf 0x11C9D) (.leaf 0x11C9E))) (.node 0x2709E50128 (.node 0x2709E40128 (.leaf 0x11CAA) (.leaf 0x11CAD)) (.node 0x2709E80128 (.leaf 0x11C9A) (.leaf 0x11CA5)))) (.node 0x2710315706 (.node 0x270A89171C (.node 0x2709EB0128 (.leaf 0x11CA9) (.leaf 0x11CA7)) (.node 0x270F58522A (.leaf 0x1D928) (.leaf 0xA64A))) (.node 0x2723FADC75 (.node 0x271C08C4D0 (.leaf 0x159F) (.leaf 0x1D0EA)) (.node 0x2724E6E875 (.leaf 0x561) (.leaf 0x562))))) (.node 0x272FE6E875 (.node 0x2729EAE775 (.node 0x2727E4E275 (.leaf 0x579) (.node 0x2728E6E275 (.leaf 0x565) (.leaf 0x586))) (.node 0x272DE6E275 (.node 0x272BEFE375 (.leaf 0x563) (.leaf 0x56B)) (.node 0x272DE6E875 (.leaf 0x584) (.leaf 0x56F)))) (.node 0x2734E6E275 (.node 0x27316CE5D9 (.node 0x2730F0F175 (.leaf 0x574) (.leaf 0x576)) (.node 0x2732E6E275 (.leaf 0x742) (.leaf 0x57A))) (.node 0x2735E6E275 (.node 0x2735DB0E2A (.leaf 0x580) (.leaf 0xFFFB)) (.node 0x2735E9DB75 (.leaf 0x57D) (.leaf 0x577)))))
def nameTree_333 : NameTree := .node 0x27468E4DF2 (.node 0x27468E49F2 (.node 0x27468E47F2 (.node 0x27468D50F2 (.leaf 0x131F6) (.leaf 0x131F7)) (.node 0x27468E48F2 (.leaf 0x131F8) (.leaf 0x131F9))) (.node 0x27468E4BF2 (.node 0x27468E4AF2 (.leaf 0x131FA) (.leaf 0x131FB)) (.node 0x27468E4CF2 (.leaf 0x131FC) (.leaf 0x131FD)))) (.node 0x27468F47F2 (.node 0x27468E4FF2 (.node 0x27468E4EF2 (.leaf 0x131FE) (.leaf 0x131FF)) (.node 0x27468E50F2 (.leaf 0x13200) (.leaf 0x13203))) (.node 0x27468F49F2 (.node 0x27468F48F2 (.leaf 0x13204) (.leaf 0x13205)) (.node 0x27468F4AF2 (.leaf 0x13206) (.leaf 0x13207))))
def nameTree_334 : NameTree := .node 0x27468D4FF2 (.node 0x273F440DE2 (.node 0x27395475AB (.node 0x273840BE4F (.leaf 0x16F06) (.node 0x2738E6F175 (.leaf 0x16F13) (.leaf 0x57E))) (.node 0x273CE9DF75 (.node 0x273AE6E275 (.leaf 0x454) (.leaf 0x56D)) (.node 0x273D9CB17A (.leaf 0x56A) (.leaf 0x1F7AA)))) (.node 0x27468D4BF2 (.node 0x27468D49F2 (.node 0x27468D48F2 (.leaf 0x1EE97) (.leaf 0x131EF)) (.node 0x27468D4AF2 (.leaf 0x131F0) (.leaf 0x131F1))) (.node 0x27468D4DF2 (.node 0x27468D4CF2 (.leaf 0x131F2) (.leaf 0x131F3)) (.node 0x27468D4EF2 (.leaf 0x131F4) (.leaf 0x131F5))))) (nameTree_333)
def nameTree_335 : NameTree := .node 0x2761CFC3B3 (.node 0x2754C80519 (.node 0x27469148F2 (.node 0x27469147F2 (.leaf 0x1321C) (.leaf 0x1321D)) (.node 0x27469149F2 (.leaf 0x1321E) (.leaf 0x1321F))) (.node 0x2756D5850E (.node 0x2756C38074 (.leaf 0x1D8C7) (.leaf 0xBD7)) (.node 0x2758D39E2F (.leaf 0x10444) (.leaf 0xFFA7)))) (.node 0x277DD83207 (.node 0x276CB333E4 (.node 0x276B74FC2C (.leaf 0x1F8A1) (.leaf 0x1F83B)) (.node 0x27709C1ED4 (.leaf 0xFC93) (.leaf 0x10B85))) (.node 0x278D272268 (.node 0x27835F904C (.leaf 0x1D7B1) (.leaf 0x1D82F)) (.node 0x2790935693 (.leaf 0x1F03) (.leaf 0x10387))))
def nameTree_336 : NameTree := .node 0x27469050F2 (.node 0x27469048F2 (.node 0x27468F4EF2 (.node 0x27468F4CF2 (.leaf 0x13208) (.node 0x27468F4DF2 (.leaf 0x13209) (.leaf 0x1320B))) (.node 0x27468F50F2 (.node 0x27468F4FF2 (.leaf 0x1320C) (.leaf 0x1320D)) (.node 0x27469047F2 (.leaf 0x1320E) (.leaf 0x1320F)))) (.node 0x2746904CF2 (.node 0x2746904AF2 (.node 0x27469049F2 (.leaf 0x13210) (.leaf 0x13211)) (.node 0x2746904BF2 (.leaf 0x13212) (.leaf 0x13214))) (.node 0x2746904EF2 (.node 0x2746904DF2 (.leaf 0x13216) (.leaf 0x13218)) (.node 0x2746904FF2 (.leaf 0x13219) (.leaf 0x1321B))))) (nameTree_335)
def nameTree_337 : NameTree := .node 0x27CD803D84 (.node 0x27CD793D84 (.node 0x27CD773D84 (.node 0x27CD01F39E (.leaf 0x1EB4) (.leaf 0x1765)) (.node 0x27CD783D84 (.leaf 0x1B29) (.leaf 0x1B18))) (.node 0x27CD7D3D84 (.node 0x27CD7C3D84 (.leaf 0x1B24) (.leaf 0x1B15)) (.node 0x27CD7F3D84 (.leaf 0x1B33) (.leaf 0x1B1A)))) (.node 0x27CD853D84 (.node 0x27CD823D84 (.node 0x27CD813D84 (.leaf 0x1B13) (.leaf 0x1B2E)) (.node 0x27CD833D84 (.leaf 0x1B2B) (.leaf 0x1B26))) (.node 0x27CD883D84 (.node 0x27CD873D84 (.leaf 0x1B27) (.leaf 0x1B2D)) (.node 0x27CD893D84 (.leaf 0x1B32) (.leaf 0x1B22))))
def nameTree_338 : NameTree := .node 0x27CB5B511B (.node 0x27A8AAD846 (.node 0x2796E54C40 (.node 0x2795B48873 (.leaf 0x20D1) (.node 0x2796E44740 (.leaf 0x1E08) (.leaf 0x1D121))) (.node 0x27A46B90C7 (.node 0x2796E5A340 (.leaf 0x1D122) (.leaf 0x1D11E)) (.node 0x27A5A6C0F8 (.leaf 0x231E) (.leaf 0x145CF)))) (.node 0x27B7F7BEA2 (.node 0x27AFA8BF80 (.node 0x27AAAB4931 (.leaf 0x1DA3D) (.leaf 0x16AF1)) (.node 0x27B697F28F (.leaf 0x1FF3) (.leaf 0x1F7AE))) (.node 0x27BD626CA7 (.node 0x27B938E699 (.leaf 0x2CD) (.leaf 0x1F309)) (.node 0x27BD957022 (.leaf 0x1DA3B) (.leaf 0x2356))))) (nameTree_337)
def nameTree_339 : NameTree := .node 0x28370CF26C (.node 0x281B512BE9 (.node 0x2815309208 (.node 0x281452B7CF (.leaf 0x1111C) (.leaf 0x10B6C)) (.node 0x281B361CE9 (.leaf 0x16F76) (.leaf 0x103C9))) (.node 0x282E6A182C (.node 0x282D7D9D5C (.leaf 0x103CA) (.leaf 0x2A8B)) (.node 0x2831BF0E9D (.leaf 0x1E2A) (.leaf 0xFB23)))) (.node 0x28378DAC67 (.node 0x28378AAC67 (.node 0x283787AC67 (.leaf 0x27C2) (.leaf 0x102A7)) (.node 0x28378BAC67 (.leaf 0x102AC) (.leaf 0x102CF))) (.node 0x283791AC67 (.node 0x28378FC367 (.leaf 0x102C1) (.leaf 0x102C5)) (.node 0x283792BE67 (.leaf 0x102BD) (.leaf 0x102A6))))
def nameTree_340 : NameTree := .node 0x2810CAC5AD (.node 0x27EFA8903F (.node 0x27DD9C4A09 (.node 0x27CD8E3D84 (.leaf 0x1B2F) (.node 0x27CE4134FD (.leaf 0x1B2C) (.leaf 0x2FFA))) (.node 0x27E109BC90 (.node 0x27DFCBFA26 (.leaf 0xA770) (.leaf 0xFC2)) (.node 0x27EF98A698 (.leaf 0xFC2D) (.leaf 0x1F2D)))) (.node 0x27FADF675A (.node 0x27F8E58B09 (.node 0x27F27BE227 (.leaf 0x1D06E) (.leaf 0x1BC87)) (.node 0x27F9FF0B42 (.leaf 0x124A8) (.leaf 0x2CE4))) (.node 0x27FF9AD431 (.node 0x27FB79E905 (.leaf 0x1F5DB) (.leaf 0x11A9E)) (.node 0x280B00EBA6 (.leaf 0x16AF2) (.leaf 0x3354))))) (nameTree_339)
def nameTree_341 : NameTree := .node 0x28468E47F2 (.node 0x28468D4DF2 (.node 0x28468D4BF2 (.node 0x28468D4AF2 (.leaf 0x13252) (.leaf 0x13253)) (.node 0x28468D4CF2 (.leaf 0x13254) (.leaf 0x13255))) (.node 0x28468D4FF2 (.node 0x28468D4EF2 (.leaf 0x13257) (.leaf 0x1325E)) (.node 0x28468D50F2 (.leaf 0x1325F) (.leaf 0x13260)))) (.node 0x28468E4BF2 (.node 0x28468E49F2 (.node 0x28468E48F2 (.leaf 0x13261) (.leaf 0x13265)) (.node 0x28468E4AF2 (.leaf 0x13266) (.leaf 0x13267))) (.node 0x28468E4DF2 (.node 0x28468E4CF2 (.leaf 0x13268) (.leaf 0x13269)) (.node 0x28468E4EF2 (.leaf 0x1326A) (.leaf 0x1326B))))
def nameTree_342 : NameTree := .node 0x28468D49F2 (.node 0x283799CD67 (.node 0x283794C867 (.node 0x283794BE67 (.leaf 0x102CA) (.node 0x283794C167 (.leaf 0x102BE) (.leaf 0x102C4))) (.node 0x283798CC67 (.node 0x283796AC67 (.leaf 0x102B3) (.leaf 0x102A1)) (.node 0x283799C267 (.leaf 0x102C9) (.leaf 0x102AE)))) (.node 0x283ADC41FF (.node 0x28379ACE67 (.node 0x283799CE67 (.leaf 0x102B8) (.leaf 0x102C2)) (.node 0x28379BCF67 (.leaf 0x102C7) (.leaf 0x102BF))) (.node 0x283FBAF3CB (.node 0x283B6CFC1B (.leaf 0x8AA) (.leaf 0x1E8CD)) (.node 0x28468D48F2 (.leaf 0x1D9EB) (.leaf 0x13250))))) (nameTree_341)
def nameTree_343 : NameTree := .node 0x28469148F2 (.node 0x2846904EF2 (.node 0x2846904CF2 (.node 0x2846904BF2 (.leaf 0x13281) (.leaf 0x13283)) (.node 0x2846904DF2 (.leaf 0x13284) (.leaf 0x13285))) (.node 0x28469050F2 (.node 0x2846904FF2 (.leaf 0x1328A) (.leaf 0x1328B)) (.node 0x28469147F2 (.leaf 0x1328C) (.leaf 0x1328D)))) (.node 0x2846914CF2 (.node 0x2846914AF2 (.node 0x28469149F2 (.leaf 0x1328E) (.leaf 0x1328F)) (.node 0x2846914BF2 (.leaf 0x13290) (.leaf 0x13291))) (.node 0x2846914EF2 (.node 0x2846914DF2 (.leaf 0x13292) (.leaf 0x13293)) (.node 0x2846914FF2 (.leaf 0x13294) (.leaf 0x13295))))
def nameTree_344 : NameTree := .node 0x2846904AF2 (.node 0x28468F4CF2 (.node 0x28468F48F2 (.node 0x28468E50F2 (.leaf 0x1326C) (.node 0x28468F47F2 (.leaf 0x1326D) (.leaf 0x1326F))) (.node 0x28468F4AF2 (.node 0x28468F49F2 (.leaf 0x13271) (.leaf 0x13272)) (.node 0x28468F4BF2 (.leaf 0x13273) (.leaf 0x13274)))) (.node 0x28468F50F2 (.node 0x28468F4EF2 (.node 0x28468F4DF2 (.leaf 0x13276) (.leaf 0x13278)) (.node 0x28468F4FF2 (.leaf 0x13279) (.leaf 0x1327A))) (.node 0x28469048F2 (.node 0x28469047F2 (.leaf 0x1327B) (.leaf 0x1327D)) (.node 0x28469049F2 (.leaf 0x1327F) (.leaf 0x13280))))) (nameTree_343)
def nameTree_345 : NameTree := .node 0x285B087549 (.node 0x285B027549 (.node 0x285B007549 (.node 0x285AFF7549 (.leaf 0xB1C) (.leaf 0xB15)) (.node 0x285B017549 (.leaf 0xB32) (.leaf 0xB2E))) (.node 0x285B067549 (.node 0x285B047549 (.leaf 0xB28) (.leaf 0xB2A)) (.node 0x285B077549 (.leaf 0xB30) (.leaf 0xB38)))) (.node 0x285B0D7549 (.node 0x285B0A7549 (.node 0x285B098949 (.leaf 0xB24) (.leaf 0xB0A)) (.node 0x285B0B7549 (.leaf 0xB35) (.leaf 0xB71))) (.node 0x286F53ED05 (.node 0x286A9B4AA5 (.leaf 0xB2F) (.leaf 0x11A46)) (.node 0x286F64FA42 (.leaf 0x1D981) (.leaf 0x10E7D))))
def nameTree_346 : NameTree := .node 0x285AFE7549 (.node 0x285AF57D49 (.node 0x284B9F8803 (.node 0x28469247F2 (.leaf 0x13296) (.node 0x28469248F2 (.leaf 0x13297) (.leaf 0x1329A))) (.node 0x285AAE8010 (.node 0x2850CE1DF1 (.leaf 0x1DA62) (.leaf 0xFED6)) (.node 0x285AF57549 (.leaf 0x29EA) (.leaf 0xB06)))) (.node 0x285AF87549 (.node 0x285AF67549 (.node 0x285AF58949 (.leaf 0xB10) (.leaf 0xB14)) (.node 0x285AF77549 (.leaf 0xB2C) (.leaf 0xB1A))) (.node 0x285AFC7549 (.node 0x285AFB7549 (.leaf 0xB26) (.leaf 0xB17)) (.node 0x285AFD7D49 (.leaf 0xB39) (.leaf 0xB08))))) (nameTree_345)
def nameTree_347 : NameTree := .node 0x25B3616989 (.node 0x23E7BA3A7C (.node 0x22A4D33C3A (.node 0x2297D0403A (.node 0x2283EF372D (nameTree_290) (nameTree_292)) (.node 0x229ECF403A (nameTree_294) (nameTree_296))) (.node 0x234B1FD8A6 (.node 0x22B8161F7D (nameTree_297) (nameTree_299)) (.node 0x23A8C1CBAA (nameTree_301) (nameTree_303)))) (.node 0x24367CEB54 (.node 0x24247A994C (.node 0x241F72994C (nameTree_304) (nameTree_306)) (.node 0x242B7A944C (nameTree_308) (nameTree_310))) (.node 0x25349C0B51 (.node 0x2498417EAC (nameTree_311) (nameTree_313)) (.node 0x257AF64C71 (nameTree_315) (nameTree_317))))) (.node 0x2709DE0128 (.node 0x2657EF9BA9 (.node 0x2621CAC5AD (.node 0x260B1BEB49 (nameTree_318) (nameTree_320)) (.node 0x26468E50F2 (nameTree_322) (nameTree_324))) (.node 0x2662914333 (.node 0x2662853D33 (nameTree_325) (nameTree_327)) (.node 0x2692D1A5C1 (nameTree_329) (nameTree_331)))) (.node 0x27CD8C3D84 (.node 0x27468F4BF2 (.node 0x27383FBE4F (nameTree_332) (nameTree_334)) (.node 0x279330CF33 (nameTree_336) (nameTree_338))) (.node 0x28468E4FF2 (.node 0x283793BC67 (nameTree_340) (nameTree_342)) (.node 0x28469150F2 (nameTree_344) (nameTree_346)))))
def nameTree_348 : NameTree := .node 0x28A5A73928 (.node 0x288DE5A65F (.node 0x287F4B3579 (.node 0x28757CC264 (.leaf 0x3FF) (.node 0x287A9F6A5C (.leaf 0x1F763) (.leaf 0x12395))) (.node 0x2880791098 (.node 0x287FD131B0 (.leaf 0x25E0) (.leaf 0x1D7BC)) (.node 0x2883F33B2D (.leaf 0x1F73F) (.leaf 0x1382)))) (.node 0x28A1840628 (.node 0x28920EB33C (.node 0x288DE5BA5F (.leaf 0x12158) (.leaf 0x12187)) (.node 0x289F38B5D9 (.leaf 0xFBE7) (.leaf 0x29DA))) (.node 0x28A5A53528 (.node 0x28A5A43528 (.leaf 0x2AA5) (.leaf 0xA84E)) (.node 0x28A5A63528 (.leaf 0xA844) (.leaf 0xA84A))))) (.node 0x28A5AF3528 (.node 0x28A5AA3528 (.node 0x28A5A83528 (.leaf 0xA866) (.node 0x28A5A93528 (.leaf 0xA864) (.leaf 0xA842))) (.node 0x28A5AD3528 (.node 0x28A5AC3528 (.leaf 0xA85C) (.leaf 0xA846)) (.node 0x28A5AE3528 (.leaf 0xA840) (.leaf 0xA859)))) (.node 0x28A5B43528 (.node 0x28A5B23528 (.node 0x28A5B03528 (.leaf 0xA84F) (.leaf 0xA84B)) (.node 0x28A5B33528 (.leaf 0xA84C) (.leaf 0xA862))) (.node 0x28A5B63528 (.node 0x28A5B53528 (.leaf 0xA858) (.leaf 0xA85B)) (.node 0x28A5B93528 (.leaf 0xA848) (.leaf 0xA853)))))
def nameTree_349 : NameTree := .node 0x28D9D07981 (.node 0x28D8071B0F (.node 0x28CF747E6C (.node 0x28C26E90DE (.leaf 0x1DB5) (.leaf 0x1D8B9)) (.node 0x28D7FF1B0F (.leaf 0x22C0) (.leaf 0x717))) (.node 0x28D9D07781 (.node 0x28D9D07681 (.leaf 0x726) (.leaf 0x2F800)) (.node 0x28D9D07881 (.leaf 0x2F801) (.leaf 0x2F802)))) (.node 0x28D9D07D81 (.node 0x28D9D07B81 (.node 0x28D9D07A81 (.leaf 0x2F803) (.leaf 0x2F804)) (.node 0x28D9D07C81 (.leaf 0x2F805) (.leaf 0x2F806))) (.node 0x28D9D07F81 (.node 0x28D9D07E81 (.leaf 0x2F807) (.leaf 0x2F808)) (.node 0x28D9D08781 (.leaf 0x2F809) (.leaf 0x2F80A))))
def nameTree_350 : NameTree := .node 0x28C214DE73 (.node 0x28B36E4420 (.node 0x28A63376D5 (.node 0x28A5BB3528 (.leaf 0xA863) (.node 0x28A5BC3528 (.leaf 0xA857) (.leaf 0xA855))) (.node 0x28AAA5E958 (.node 0x28A98E9B19 (.leaf 0x272F) (.leaf 0xFBF3)) (.node 0x28AD710384 (.leaf 0x1E65) (.leaf 0x101D4)))) (.node 0x28BDC7881D (.node 0x28BDC7801D (.node 0x28BA0F182D (.leaf 0xFDBA) (.leaf 0x1F0E0)) (.node 0x28BDC7841D (.leaf 0x109A0) (.leaf 0x109A1))) (.node 0x28C0F62DEA (.node 0x28BDC78E1D (.leaf 0x109A2) (.leaf 0x109A3)) (.node 0x28C1C310EB (.leaf 0x21B0) (.leaf 0x1F838))))) (nameTree_349)
def nameTree_351 : NameTree := .node 0x28D9D27881 (.node 0x28D9D18B81 (.node 0x28D9D18981 (.node 0x28D9D18881 (.leaf 0x2F81A) (.leaf 0x2F81B)) (.node 0x28D9D18A81 (.leaf 0x2F81C) (.leaf 0x2F81D))) (.node 0x28D9D27681 (.node 0x28D9D18C81 (.leaf 0x2F81E) (.leaf 0x2F81F)) (.node 0x28D9D27781 (.leaf 0x2F820) (.leaf 0x2F821)))) (.node 0x28D9D27C81 (.node 0x28D9D27A81 (.node 0x28D9D27981 (.leaf 0x2F822) (.leaf 0x2F823)) (.node 0x28D9D27B81 (.leaf 0x2F824) (.leaf 0x2F825))) (.node 0x28D9D27E81 (.node 0x28D9D27D81 (.leaf 0x2F826) (.leaf 0x2F827)) (.node 0x28D9D27F81 (.leaf 0x2F828) (.leaf 0x2F829))))
def nameTree_352 : NameTree := .node 0x28D9D18781 (.node 0x28D9D17881 (.node 0x28D9D08B81 (.node 0x28D9D08981 (.leaf 0x2F80B) (.node 0x28D9D08A81 (.leaf 0x2F80C) (.leaf 0x2F80D))) (.node 0x28D9D17681 (.node 0x28D9D08C81 (.leaf 0x2F80E) (.leaf 0x2F80F)) (.node 0x28D9D17781 (.leaf 0x2F810) (.leaf 0x2F811)))) (.node 0x28D9D17C81 (.node 0x28D9D17A81 (.node 0x28D9D17981 (.leaf 0x2F812) (.leaf 0x2F813)) (.node 0x28D9D17B81 (.leaf 0x2F814) (.leaf 0x2F815))) (.node 0x28D9D17E81 (.node 0x28D9D17D81 (.leaf 0x2F816) (.leaf 0x2F817)) (.node 0x28D9D17F81 (.leaf 0x2F818) (.leaf 0x2F819))))) (nameTree_351)
def nameTree_353 : NameTree := .node 0x28D9D47781 (.node 0x28D9D38A81 (.node 0x28D9D38881 (.node 0x28D9D38781 (.leaf 0x2F839) (.leaf 0x2F83A)) (.node 0x28D9D38981 (.leaf 0x2F83B) (.leaf 0x2F83C))) (.node 0x28D9D38C81 (.node 0x28D9D38B81 (.leaf 0x2F83D) (.leaf 0x2F83E)) (.node 0x28D9D47681 (.leaf 0x2F83F) (.leaf 0x2F840)))) (.node 0x28D9D47B81 (.node 0x28D9D47981 (.node 0x28D9D47881 (.leaf 0x2F841) (.leaf 0x2F842)) (.node 0x28D9D47A81 (.leaf 0x2F843) (.leaf 0x2F844))) (.node 0x28D9D47D81 (.node 0x28D9D47C81 (.leaf 0x2F845) (.leaf 0x2F846)) (.node 0x28D9D47E81 (.leaf 0x2F847) (.leaf 0x2F848))))
def nameTree_354 : NameTree := .node 0x28D9D37F81 (.node 0x28D9D37781 (.node 0x28D9D28A81 (.node 0x28D9D28881 (.leaf 0x2F82A) (.node 0x28D9D28981 (.leaf 0x2F82B) (.leaf 0x2F82C))) (.node 0x28D9D28C81 (.node 0x28D9D28B81 (.leaf 0x2F82D) (.leaf 0x2F82E)) (.node 0x28D9D37681 (.leaf 0x2F82F) (.leaf 0x2F830)))) (.node 0x28D9D37B81 (.node 0x28D9D37981 (.node 0x28D9D37881 (.leaf 0x2F831) (.leaf 0x2F832)) (.node 0x28D9D37A81 (.leaf 0x2F833) (.leaf 0x2F834))) (.node 0x28D9D37D81 (.node 0x28D9D37C81 (.leaf 0x2F835) (.leaf 0x2F836)) (.node 0x28D9D37E81 (.leaf 0x2F837) (.leaf 0x2F838))))) (nameTree_353)
def nameTree_355 : NameTree := .node 0x28D9D57E81 (.node 0x28D9D57681 (.node 0x28D9D48981 (.node 0x28D9D48781 (.leaf 0x2F849) (.node 0x28D9D48881 (.leaf 0x2F84A) (.leaf 0x2F84B))) (.node 0x28D9D48B81 (.node 0x28D9D48A81 (.leaf 0x2F84C) (.leaf 0x2F84D)) (.node 0x28D9D48C81 (.leaf 0x2F84E) (.leaf 0x2F84F)))) (.node 0x28D9D57A81 (.node 0x28D9D57881 (.node 0x28D9D57781 (.leaf 0x2F850) (.leaf 0x2F851)) (.node 0x28D9D57981 (.leaf 0x2F852) (.leaf 0x2F853))) (.node 0x28D9D57C81 (.node 0x28D9D57B81 (.leaf 0x2F854) (.leaf 0x2F855)) (.node 0x28D9D57D81 (.leaf 0x2F856) (.leaf 0x2F857))))) (.node 0x28D9D58C81 (.node 0x28D9D58881 (.node 0x28D9D57F81 (.leaf 0x2F858) (.node 0x28D9D58781 (.leaf 0x2F859) (.leaf 0x2F85A))) (.node 0x28D9D58A81 (.node 0x28D9D58981 (.leaf 0x2F85B) (.leaf 0x2F85C)) (.node 0x28D9D58B81 (.leaf 0x2F85D) (.leaf 0x2F85E)))) (.node 0x28D9D67981 (.node 0x28D9D67781 (.node 0x28D9D67681 (.leaf 0x2F85F) (.leaf 0x2F860)) (.node 0x28D9D67881 (.leaf 0x2F861) (.leaf 0x2F862))) (.node 0x28D9D67B81 (.node 0x28D9D67A81 (.leaf 0x2F863) (.leaf 0x2F864)) (.node 0x28D9D67C81 (.leaf 0x2F865) (.leaf 0x2F866)))))
def nameTree_356 : NameTree := .node 0x28D9D78B81 (.node 0x28D9D78781 (.node 0x28D9D77E81 (.node 0x28D9D77D81 (.leaf 0x2F876) (.leaf 0x2F877)) (.node 0x28D9D77F81 (.leaf 0x2F878) (.leaf 0x2F879))) (.node 0x28D9D78981 (.node 0x28D9D78881 (.leaf 0x2F87A) (.leaf 0x2F87B)) (.node 0x28D9D78A81 (.leaf 0x2F87C) (.leaf 0x2F87D)))) (.node 0x28D9D87881 (.node 0x28D9D87681 (.node 0x28D9D78C81 (.leaf 0x2F87E) (.leaf 0x2F87F)) (.node 0x28D9D87781 (.leaf 0x2F880) (.leaf 0x2F881))) (.node 0x28D9D87A81 (.node 0x28D9D87981 (.leaf 0x2F882) (.leaf 0x2F883)) (.node 0x28D9D87B81 (.leaf 0x2F884) (.leaf 0x2F885))))
def nameTree_357 : NameTree := .node 0x28D9D77C81 (.node 0x28D9D68B81 (.node 0x28D9D68781 (.node 0x28D9D67E81 (.leaf 0x2F867) (.node 0x28D9D67F81 (.leaf 0x2F868) (.leaf 0x2F869))) (.node 0x28D9D68981 (.node 0x28D9D68881 (.leaf 0x2F86A) (.leaf 0x2F86B)) (.node 0x28D9D68A81 (.leaf 0x2F86C) (.leaf 0x2F86D)))) (.node 0x28D9D77881 (.node 0x28D9D77681 (.node 0x28D9D68C81 (.leaf 0x2F86E) (.leaf 0x2F86F)) (.node 0x28D9D77781 (.leaf 0x2F870) (.leaf 0x2F871))) (.node 0x28D9D77A81 (.node 0x28D9D77981 (.leaf 0x2F872) (.leaf 0x2F873)) (.node 0x28D9D77B81 (.leaf 0x2F874) (.leaf 0x2F875))))) (nameTree_356)
def nameTree_358 : NameTree := .node 0x28D9D98A81 (.node 0x28D9D97F81 (.node 0x28D9D97D81 (.node 0x28D9D97C81 (.leaf 0x2F895) (.leaf 0x2F896)) (.node 0x28D9D97E81 (.leaf 0x2F897) (.leaf 0x2F898))) (.node 0x28D9D98881 (.node 0x28D9D98781 (.leaf 0x2F899) (.leaf 0x2F89A)) (.node 0x28D9D98981 (.leaf 0x2F89B) (.leaf 0x2F89C)))) (.node 0x28D9E17781 (.node 0x28D9D98C81 (.node 0x28D9D98B81 (.leaf 0x2F89D) (.leaf 0x2F89E)) (.node 0x28D9E17681 (.leaf 0x2F89F) (.leaf 0x2F8A0))) (.node 0x28D9E17981 (.node 0x28D9E17881 (.leaf 0x2F8A1) (.leaf 0x2F8A2)) (.node 0x28D9E17A81 (.leaf 0x2F8A3) (.leaf 0x2F8A4))))
def nameTree_359 : NameTree := .node 0x28D9D97B81 (.node 0x28D9D88A81 (.node 0x28D9D87F81 (.node 0x28D9D87D81 (.leaf 0x2F886) (.node 0x28D9D87E81 (.leaf 0x2F887) (.leaf 0x2F888))) (.node 0x28D9D88881 (.node 0x28D9D88781 (.leaf 0x2F889) (.leaf 0x2F88A)) (.node 0x28D9D88981 (.leaf 0x2F88B) (.leaf 0x2F88C)))) (.node 0x28D9D97781 (.node 0x28D9D88C81 (.node 0x28D9D88B81 (.leaf 0x2F88D) (.leaf 0x2F88E)) (.node 0x28D9D97681 (.leaf 0x2F88F) (.leaf 0x2F890))) (.node 0x28D9D97981 (.node 0x28D9D97881 (.leaf 0x2F891) (.leaf 0x2F892)) (.node 0x28D9D97A81 (.leaf 0x2F893) (.leaf 0x2F894))))) (nameTree_358)
def nameTree_360 : NameTree := .node 0x28D9E28981 (.node 0x28D9E27E81 (.node 0x28D9E27C81 (.node 0x28D9E27B81 (.leaf 0x2F8B4) (.leaf 0x2F8B5)) (.node 0x28D9E27D81 (.leaf 0x2F8B6) (.leaf 0x2F8B7))) (.node 0x28D9E28781 (.node 0x28D9E27F81 (.leaf 0x2F8B8) (.leaf 0x2F8B9)) (.node 0x28D9E28881 (.leaf 0x2F8BA) (.leaf 0x2F8BB)))) (.node 0x28D9E37681 (.node 0x28D9E28B81 (.node 0x28D9E28A81 (.leaf 0x2F8BC) (.leaf 0x2F8BD)) (.node 0x28D9E28C81 (.leaf 0x2F8BE) (.leaf 0x2F8BF))) (.node 0x28D9E37881 (.node 0x28D9E37781 (.leaf 0x2F8C0) (.leaf 0x2F8C1)) (.node 0x28D9E37981 (.leaf 0x2F8C2) (.leaf 0x2F8C3))))
def nameTree_361 : NameTree := .node 0x28D9E27A81 (.node 0x28D9E18981 (.node 0x28D9E17E81 (.node 0x28D9E17C81 (.leaf 0x2F8A5) (.node 0x28D9E17D81 (.leaf 0x2F8A6) (.leaf 0x2F8A7))) (.node 0x28D9E18781 (.node 0x28D9E17F81 (.leaf 0x2F8A8) (.leaf 0x2F8A9)) (.node 0x28D9E18881 (.leaf 0x2F8AA) (.leaf 0x2F8AB)))) (.node 0x28D9E27681 (.node 0x28D9E18B81 (.node 0x28D9E18A81 (.leaf 0x2F8AC) (.leaf 0x2F8AD)) (.node 0x28D9E18C81 (.leaf 0x2F8AE) (.leaf 0x2F8AF))) (.node 0x28D9E27881 (.node 0x28D9E27781 (.leaf 0x2F8B0) (.leaf 0x2F8B1)) (.node 0x28D9E27981 (.leaf 0x2F8B2) (.leaf 0x2F8B3))))) (nameTree_360)
def nameTree_362 : NameTree := .node 0x28D9E47981 (.node 0x28D9E38881 (.node 0x28D9E37D81 (.node 0x28D9E37B81 (.leaf 0x2F8C4) (.node 0x28D9E37C81 (.leaf 0x2F8C5) (.leaf 0x2F8C6))) (.node 0x28D9E37F81 (.node 0x28D9E37E81 (.leaf 0x2F8C7) (.leaf 0x2F8C8)) (.node 0x28D9E38781 (.leaf 0x2F8C9) (.leaf 0x2F8CA)))) (.node 0x28D9E38C81 (.node 0x28D9E38A81 (.node 0x28D9E38981 (.leaf 0x2F8CB) (.leaf 0x2F8CC)) (.node 0x28D9E38B81 (.leaf 0x2F8CD) (.leaf 0x2F8CE))) (.node 0x28D9E47781 (.node 0x28D9E47681 (.leaf 0x2F8CF) (.leaf 0x2F8D0)) (.node 0x28D9E47881 (.leaf 0x2F8D1) (.leaf 0x2F8D2))))) (.node 0x28D9E48781 (.node 0x28D9E47C81 (.node 0x28D9E47A81 (.leaf 0x2F8D3) (.node 0x28D9E47B81 (.leaf 0x2F8D4) (.leaf 0x2F8D5))) (.node 0x28D9E47E81 (.node 0x28D9E47D81 (.leaf 0x2F8D6) (.leaf 0x2F8D7)) (.node 0x28D9E47F81 (.leaf 0x2F8D8) (.leaf 0x2F8D9)))) (.node 0x28D9E48B81 (.node 0x28D9E48981 (.node 0x28D9E48881 (.leaf 0x2F8DA) (.leaf 0x2F8DB)) (.node 0x28D9E48A81 (.leaf 0x2F8DC) (.leaf 0x2F8DD))) (.node 0x28D9E57681 (.node 0x28D9E48C81 (.leaf 0x2F8DE) (.leaf 0x2F8DF)) (.node 0x28D9E57781 (.leaf 0x2F8E0) (.leaf 0x2F8E1)))))
def nameTree_363 : NameTree := .node 0x28D9E67F81 (.node 0x28D9E67B81 (.node 0x28D9E67981 (.node 0x28D9E67881 (.leaf 0x2F8F1) (.leaf 0x2F8F2)) (.node 0x28D9E67A81 (.leaf 0x2F8F3) (.leaf 0x2F8F4))) (.node 0x28D9E67D81 (.node 0x28D9E67C81 (.leaf 0x2F8F5) (.leaf 0x2F8F6)) (.node 0x28D9E67E81 (.leaf 0x2F8F7) (.leaf 0x2F8F8)))) (.node 0x28D9E68A81 (.node 0x28D9E68881 (.node 0x28D9E68781 (.leaf 0x2F8F9) (.leaf 0x2F8FA)) (.node 0x28D9E68981 (.leaf 0x2F8FB) (.leaf 0x2F8FC))) (.node 0x28D9E68C81 (.node 0x28D9E68B81 (.leaf 0x2F8FD) (.leaf 0x2F8FE)) (.node 0x28DAD07681 (.leaf 0x2F8FF) (.leaf 0x2F900))))
def nameTree_364 : NameTree := .node 0x28D9E67781 (.node 0x28D9E57F81 (.node 0x28D9E57B81 (.node 0x28D9E57981 (.leaf 0x2F8E2) (.node 0x28D9E57A81 (.leaf 0x2F8E3) (.leaf 0x2F8E4))) (.node 0x28D9E57D81 (.node 0x28D9E57C81 (.leaf 0x2F8E5) (.leaf 0x2F8E6)) (.node 0x28D9E57E81 (.leaf 0x2F8E7) (.leaf 0x2F8E8)))) (.node 0x28D9E58A81 (.node 0x28D9E58881 (.node 0x28D9E58781 (.leaf 0x2F8E9) (.leaf 0x2F8EA)) (.node 0x28D9E58981 (.leaf 0x2F8EB) (.leaf 0x2F8EC))) (.node 0x28D9E58C81 (.node 0x28D9E58B81 (.leaf 0x2F8ED) (.leaf 0x2F8EE)) (.node 0x28D9E67681 (.leaf 0x2F8EF) (.leaf 0x2F8F0))))) (nameTree_363)
def nameTree_365 : NameTree := .node 0x28DAD17E81 (.node 0x28DAD17A81 (.node 0x28DAD17881 (.node 0x28DAD17781 (.leaf 0x2F910) (.leaf 0x2F911)) (.node 0x28DAD17981 (.leaf 0x2F912) (.leaf 0x2F913))) (.node 0x28DAD17C81 (.node 0x28DAD17B81 (.leaf 0x2F914) (.leaf 0x2F915)) (.node 0x28DAD17D81 (.leaf 0x2F916) (.leaf 0x2F917)))) (.node 0x28DAD18981 (.node 0x28DAD18781 (.node 0x28DAD17F81 (.leaf 0x2F918) (.leaf 0x2F919)) (.node 0x28DAD18881 (.leaf 0x2F91A) (.leaf 0x2F91B))) (.node 0x28DAD18B81 (.node 0x28DAD18A81 (.leaf 0x2F91C) (.leaf 0x2F91D)) (.node 0x28DAD18C81 (.leaf 0x2F91E) (.leaf 0x2F91F))))
def nameTree_366 : NameTree := .node 0x28DAD17681 (.node 0x28DAD07E81 (.node 0x28DAD07A81 (.node 0x28DAD07881 (.leaf 0x2F901) (.node 0x28DAD07981 (.leaf 0x2F902) (.leaf 0x2F903))) (.node 0x28DAD07C81 (.node 0x28DAD07B81 (.leaf 0x2F904) (.leaf 0x2F905)) (.node 0x28DAD07D81 (.leaf 0x2F906) (.leaf 0x2F907)))) (.node 0x28DAD08981 (.node 0x28DAD08781 (.node 0x28DAD07F81 (.leaf 0x2F908) (.leaf 0x2F909)) (.node 0x28DAD08881 (.leaf 0x2F90A) (.leaf 0x2F90B))) (.node 0x28DAD08B81 (.node 0x28DAD08A81 (.leaf 0x2F90C) (.leaf 0x2F90D)) (.node 0x28DAD08C81 (.leaf 0x2F90E) (.leaf 0x2F90F))))) (nameTree_365)
def nameTree_367 : NameTree := .node 0x28DAD37D81 (.node 0x28DAD37981 (.node 0x28DAD37781 (.node 0x28DAD37681 (.leaf 0x2F92F) (.leaf 0x2F930)) (.node 0x28DAD37881 (.leaf 0x2F931) (.leaf 0x2F932))) (.node 0x28DAD37B81 (.node 0x28DAD37A81 (.leaf 0x2F933) (.leaf 0x2F934)) (.node 0x28DAD37C81 (.leaf 0x2F935) (.leaf 0x2F936)))) (.node 0x28DAD38881 (.node 0x28DAD37F81 (.node 0x28DAD37E81 (.leaf 0x2F937) (.leaf 0x2F938)) (.node 0x28DAD38781 (.leaf 0x2F939) (.leaf 0x2F93A))) (.node 0x28DAD38A81 (.node 0x28DAD38981 (.leaf 0x2F93B) (.leaf 0x2F93C)) (.node 0x28DAD38B81 (.leaf 0x2F93D) (.leaf 0x2F93E))))
def nameTree_368 : NameTree := .node 0x28DAD28C81 (.node 0x28DAD27D81 (.node 0x28DAD27981 (.node 0x28DAD27781 (.leaf 0x2F920) (.node 0x28DAD27881 (.leaf 0x2F921) (.leaf 0x2F922))) (.node 0x28DAD27B81 (.node 0x28DAD27A81 (.leaf 0x2F923) (.leaf 0x2F924)) (.node 0x28DAD27C81 (.leaf 0x2F925) (.leaf 0x2F926)))) (.node 0x28DAD28881 (.node 0x28DAD27F81 (.node 0x28DAD27E81 (.leaf 0x2F927) (.leaf 0x2F928)) (.node 0x28DAD28781 (.leaf 0x2F929) (.leaf 0x2F92A))) (.node 0x28DAD28A81 (.node 0x28DAD28981 (.leaf 0x2F92B) (.leaf 0x2F92C)) (.node 0x28DAD28B81 (.leaf 0x2F92D) (.leaf 0x2F92E))))) (nameTree_367)
def nameTree_369 : NameTree := .node 0x28DAD48B81 (.node 0x28DAD47C81 (.node 0x28DAD47881 (.node 0x28DAD47681 (.leaf 0x2F93F) (.node 0x28DAD47781 (.leaf 0x2F940) (.leaf 0x2F941))) (.node 0x28DAD47A81 (.node 0x28DAD47981 (.leaf 0x2F942) (.leaf 0x2F943)) (.node 0x28DAD47B81 (.leaf 0x2F944) (.leaf 0x2F945)))) (.node 0x28DAD48781 (.node 0x28DAD47E81 (.node 0x28DAD47D81 (.leaf 0x2F946) (.leaf 0x2F947)) (.node 0x28DAD47F81 (.leaf 0x2F948) (.leaf 0x2F949))) (.node 0x28DAD48981 (.node 0x28DAD48881 (.leaf 0x2F94A) (.leaf 0x2F94B)) (.node 0x28DAD48A81 (.leaf 0x2F94C) (.leaf 0x2F94D))))) (.node 0x28DAD57B81 (.node 0x28DAD57781 (.node 0x28DAD48C81 (.leaf 0x2F94E) (.node 0x28DAD57681 (.leaf 0x2F94F) (.leaf 0x2F950))) (.node 0x28DAD57981 (.node 0x28DAD57881 (.leaf 0x2F951) (.leaf 0x2F952)) (.node 0x28DAD57A81 (.leaf 0x2F953) (.leaf 0x2F954)))) (.node 0x28DAD57F81 (.node 0x28DAD57D81 (.node 0x28DAD57C81 (.leaf 0x2F955) (.leaf 0x2F956)) (.node 0x28DAD57E81 (.leaf 0x2F957) (.leaf 0x2F958))) (.node 0x28DAD58881 (.node 0x28DAD58781 (.leaf 0x2F959) (.leaf 0x2F95A)) (.node 0x28DAD58981 (.leaf 0x2F95B) (.leaf 0x2F95C)))))
def nameTree_370 : NameTree := .node 0x28DAD77A81 (.node 0x28DAD77681 (.node 0x28DAD68B81 (.node 0x28DAD68A81 (.leaf 0x2F96C) (.leaf 0x2F96D)) (.node 0x28DAD68C81 (.leaf 0x2F96E) (.leaf 0x2F96F))) (.node 0x28DAD77881 (.node 0x28DAD77781 (.leaf 0x2F970) (.leaf 0x2F971)) (.node 0x28DAD77981 (.leaf 0x2F972) (.leaf 0x2F973)))) (.node 0x28DAD77E81 (.node 0x28DAD77C81 (.node 0x28DAD77B81 (.leaf 0x2F974) (.leaf 0x2F975)) (.node 0x28DAD77D81 (.leaf 0x2F976) (.leaf 0x2F977))) (.node 0x28DAD78781 (.node 0x28DAD77F81 (.leaf 0x2F978) (.leaf 0x2F979)) (.node 0x28DAD78881 (.leaf 0x2F97A) (.leaf 0x2F97B))))
def nameTree_371 : NameTree := .node 0x28DAD68981 (.node 0x28DAD67A81 (.node 0x28DAD67681 (.node 0x28DAD58B81 (.leaf 0x2F95D) (.node 0x28DAD58C81 (.leaf 0x2F95E) (.leaf 0x2F95F))) (.node 0x28DAD67881 (.node 0x28DAD67781 (.leaf 0x2F960) (.leaf 0x2F961)) (.node 0x28DAD67981 (.leaf 0x2F962) (.leaf 0x2F963)))) (.node 0x28DAD67E81 (.node 0x28DAD67C81 (.node 0x28DAD67B81 (.leaf 0x2F964) (.leaf 0x2F965)) (.node 0x28DAD67D81 (.leaf 0x2F966) (.leaf 0x2F967))) (.node 0x28DAD68781 (.node 0x28DAD67F81 (.leaf 0x2F968) (.leaf 0x2F969)) (.node 0x28DAD68881 (.leaf 0x2F96A) (.leaf 0x2F96B))))) (nameTree_370)
def nameTree_372 : NameTree := .node 0x28DAD97981 (.node 0x28DAD88C81 (.node 0x28DAD88A81 (.node 0x28DAD88981 (.leaf 0x2F98B) (.leaf 0x2F98C)) (.node 0x28DAD88B81 (.leaf 0x2F98D) (.leaf 0x2F98E))) (.node 0x28DAD97781 (.node 0x28DAD97681 (.leaf 0x2F98F) (.leaf 0x2F990)) (.node 0x28DAD97881 (.leaf 0x2F991) (.leaf 0x2F992)))) (.node 0x28DAD97D81 (.node 0x28DAD97B81 (.node 0x28DAD97A81 (.leaf 0x2F993) (.leaf 0x2F994)) (.node 0x28DAD97C81 (.leaf 0x2F995) (.leaf 0x2F996))) (.node 0x28DAD97F81 (.node 0x28DAD97E81 (.leaf 0x2F997) (.leaf 0x2F998)) (.node 0x28DAD98781 (.leaf 0x2F999) (.leaf 0x2F99A))))
def nameTree_373 : NameTree := .node 0x28DAD88881 (.node 0x28DAD87981 (.node 0x28DAD78C81 (.node 0x28DAD78A81 (.leaf 0x2F97C) (.node 0x28DAD78B81 (.leaf 0x2F97D) (.leaf 0x2F97E))) (.node 0x28DAD87781 (.node 0x28DAD87681 (.leaf 0x2F97F) (.leaf 0x2F980)) (.node 0x28DAD87881 (.leaf 0x2F981) (.leaf 0x2F982)))) (.node 0x28DAD87D81 (.node 0x28DAD87B81 (.node 0x28DAD87A81 (.leaf 0x2F983) (.leaf 0x2F984)) (.node 0x28DAD87C81 (.leaf 0x2F985) (.leaf 0x2F986))) (.node 0x28DAD87F81 (.node 0x28DAD87E81 (.leaf 0x2F987) (.leaf 0x2F988)) (.node 0x28DAD88781 (.leaf 0x2F989) (.leaf 0x2F98A))))) (nameTree_372)
def nameTree_374 : NameTree := .node 0x28DAE27881 (.node 0x28DAE18B81 (.node 0x28DAE18981 (.node 0x28DAE18881 (.leaf 0x2F9AA) (.leaf 0x2F9AB)) (.node 0x28DAE18A81 (.leaf 0x2F9AC) (.leaf 0x2F9AD))) (.node 0x28DAE27681 (.node 0x28DAE18C81 (.leaf 0x2F9AE) (.leaf 0x2F9AF)) (.node 0x28DAE27781 (.leaf 0x2F9B0) (.leaf 0x2F9B1)))) (.node 0x28DAE27C81 (.node 0x28DAE27A81 (.node 0x28DAE27981 (.leaf 0x2F9B2) (.leaf 0x2F9B3)) (.node 0x28DAE27B81 (.leaf 0x2F9B4) (.leaf 0x2F9B5))) (.node 0x28DAE27E81 (.node 0x28DAE27D81 (.leaf 0x2F9B6) (.leaf 0x2F9B7)) (.node 0x28DAE27F81 (.leaf 0x2F9B8) (.leaf 0x2F9B9))))
def nameTree_375 : NameTree := .node 0x28DAE18781 (.node 0x28DAE17881 (.node 0x28DAD98B81 (.node 0x28DAD98981 (.leaf 0x2F99B) (.node 0x28DAD98A81 (.leaf 0x2F99C) (.leaf 0x2F99D))) (.node 0x28DAE17681 (.node 0x28DAD98C81 (.leaf 0x2F99E) (.leaf 0x2F99F)) (.node 0x28DAE17781 (.leaf 0x2F9A0) (.leaf 0x2F9A1)))) (.node 0x28DAE17C81 (.node 0x28DAE17A81 (.node 0x28DAE17981 (.leaf 0x2F9A2) (.leaf 0x2F9A3)) (.node 0x28DAE17B81 (.leaf 0x2F9A4) (.leaf 0x2F9A5))) (.node 0x28DAE17E81 (.node 0x28DAE17D81 (.leaf 0x2F9A6) (.leaf 0x2F9A7)) (.node 0x28DAE17F81 (.leaf 0x2F9A8) (.leaf 0x2F9A9))))) (nameTree_374)
def nameTree_376 : NameTree := .node 0x28DAE37F81 (.node 0x28DAE37781 (.node 0x28DAE28A81 (.node 0x28DAE28881 (.leaf 0x2F9BA) (.node 0x28DAE28981 (.leaf 0x2F9BB) (.leaf 0x2F9BC))) (.node 0x28DAE28C81 (.node 0x28DAE28B81 (.leaf 0x2F9BD) (.leaf 0x2F9BE)) (.node 0x28DAE37681 (.leaf 0x2F9BF) (.leaf 0x2F9C0)))) (.node 0x28DAE37B81 (.node 0x28DAE37981 (.node 0x28DAE37881 (.leaf 0x2F9C1) (.leaf 0x2F9C2)) (.node 0x28DAE37A81 (.leaf 0x2F9C3) (.leaf 0x2F9C4))) (.node 0x28DAE37D81 (.node 0x28DAE37C81 (.leaf 0x2F9C5) (.leaf 0x2F9C6)) (.node 0x28DAE37E81 (.leaf 0x2F9C7) (.leaf 0x2F9C8))))) (.node 0x28DAE47681 (.node 0x28DAE38981 (.node 0x28DAE38781 (.leaf 0x2F9C9) (.node 0x28DAE38881 (.leaf 0x2F9CA) (.leaf 0x2F9CB))) (.node 0x28DAE38B81 (.node 0x28DAE38A81 (.leaf 0x2F9CC) (.leaf 0x2F9CD)) (.node 0x28DAE38C81 (.leaf 0x2F9CE) (.leaf 0x2F9CF)))) (.node 0x28DAE47A81 (.node 0x28DAE47881 (.node 0x28DAE47781 (.leaf 0x2F9D0) (.leaf 0x2F9D1)) (.node 0x28DAE47981 (.leaf 0x2F9D2) (.leaf 0x2F9D3))) (.node 0x28DAE47C81 (.node 0x28DAE47B81 (.leaf 0x2F9D4) (.leaf 0x2F9D5)) (.node 0x28DAE47D81 (.leaf 0x2F9D6) (.leaf 0x2F9D7)))))
def nameTree_377 : NameTree := .node 0x28DAE58C81 (.node 0x28DAE58881 (.node 0x28DAE57F81 (.node 0x28DAE57E81 (.leaf 0x2F9E7) (.leaf 0x2F9E8)) (.node 0x28DAE58781 (.leaf 0x2F9E9) (.leaf 0x2F9EA))) (.node 0x28DAE58A81 (.node 0x28DAE58981 (.leaf 0x2F9EB) (.leaf 0x2F9EC)) (.node 0x28DAE58B81 (.leaf 0x2F9ED) (.leaf 0x2F9EE)))) (.node 0x28DAE67981 (.node 0x28DAE67781 (.node 0x28DAE67681 (.leaf 0x2F9EF) (.leaf 0x2F9F0)) (.node 0x28DAE67881 (.leaf 0x2F9F1) (.leaf 0x2F9F2))) (.node 0x28DAE67B81 (.node 0x28DAE67A81 (.leaf 0x2F9F3) (.leaf 0x2F9F4)) (.node 0x28DAE67C81 (.leaf 0x2F9F5) (.leaf 0x2F9F6))))
def nameTree_378 : NameTree := .node 0x28DAE57D81 (.node 0x28DAE48C81 (.node 0x28DAE48881 (.node 0x28DAE47F81 (.leaf 0x2F9D8) (.node 0x28DAE48781 (.leaf 0x2F9D9) (.leaf 0x2F9DA))) (.node 0x28DAE48A81 (.node 0x28DAE48981 (.leaf 0x2F9DB) (.leaf 0x2F9DC)) (.node 0x28DAE48B81 (.leaf 0x2F9DD) (.leaf 0x2F9DE)))) (.node 0x28DAE57981 (.node 0x28DAE57781 (.node 0x28DAE57681 (.leaf 0x2F9DF) (.leaf 0x2F9E0)) (.node 0x28DAE57881 (.leaf 0x2F9E1) (.leaf 0x2F9E2))) (.node 0x28DAE57B81 (.node 0x28DAE57A81 (.leaf 0x2F9E3) (.leaf 0x2F9E4)) (.node 0x28DAE57C81 (.leaf 0x2F9E5) (.leaf 0x2F9E6))))) (nameTree_377)
def nameTree_379 : NameTree := .node 0x28E2D08A81 (.node 0x28E2D07F81 (.node 0x28E2D07D81 (.node 0x28E2D07C81 (.leaf 0x2FA05) (.leaf 0x2FA06)) (.node 0x28E2D07E81 (.leaf 0x2FA07) (.leaf 0x2FA08))) (.node 0x28E2D08881 (.node 0x28E2D08781 (.leaf 0x2FA09) (.leaf 0x2FA0A)) (.node 0x28E2D08981 (.leaf 0x2FA0B) (.leaf 0x2FA0C)))) (.node 0x28E2D17781 (.node 0x28E2D08C81 (.node 0x28E2D08B81 (.leaf 0x2FA0D) (.leaf 0x2FA0E)) (.node 0x28E2D17681 (.leaf 0x2FA0F) (.leaf 0x2FA10))) (.node 0x28E2D17981 (.node 0x28E2D17881 (.leaf 0x2FA11) (.leaf 0x2FA12)) (.node 0x28E2D17A81 (.leaf 0x2FA13) (.leaf 0x2FA14))))
def nameTree_380 : NameTree := .node 0x28E2D07B81 (.node 0x28DAE68B81 (.node 0x28DAE68781 (.node 0x28DAE67E81 (.leaf 0x2F9F7) (.node 0x28DAE67F81 (.leaf 0x2F9F8) (.leaf 0x2F9F9))) (.node 0x28DAE68981 (.node 0x28DAE68881 (.leaf 0x2F9FA) (.leaf 0x2F9FB)) (.node 0x28DAE68A81 (.leaf 0x2F9FC) (.leaf 0x2F9FD)))) (.node 0x28E2D07781 (.node 0x28DC165579 (.node 0x28DAE68C81 (.leaf 0x2F9FE) (.leaf 0x2F9FF)) (.node 0x28E2D07681 (.leaf 0x7C) (.leaf 0x2FA00))) (.node 0x28E2D07981 (.node 0x28E2D07881 (.leaf 0x2FA01) (.leaf 0x2FA02)) (.node 0x28E2D07A81 (.leaf 0x2FA03) (.leaf 0x2FA04))))) (nameTree_379)
def nameTree_381 : NameTree := .node 0x28FFBD5D02 (.node 0x28FDB35D02 (.node 0x28FD055D02 (.node 0x28F7FE3ADE (.leaf 0x2C3B) (.leaf 0x1F520)) (.node 0x28FD5C5D02 (.leaf 0xDB6) (.leaf 0xDA0))) (.node 0x28FEB85D02 (.node 0x28FE152199 (.leaf 0xDAF) (.leaf 0x4C2)) (.node 0x28FF42D07F (.leaf 0xD9C) (.leaf 0x1F19F)))) (.node 0x2902A0C474 (.node 0x2900AC8419 (.node 0x2900145D02 (.leaf 0xDA2) (.leaf 0xD9A)) (.node 0x2901C75D02 (.leaf 0xFC33) (.leaf 0xDB4))) (.node 0x290342D3F9 (.node 0x2903235D02 (.leaf 0x32A2) (.leaf 0xDAD)) (.node 0x290A814E34 (.leaf 0xC3D) (.leaf 0x2363))))
def nameTree_382 : NameTree := .node 0x28F7A09FC9 (.node 0x28E2D18981 (.node 0x28E2D17E81 (.node 0x28E2D17C81 (.leaf 0x2FA15) (.node 0x28E2D17D81 (.leaf 0x2FA16) (.leaf 0x2FA17))) (.node 0x28E2D18781 (.node 0x28E2D17F81 (.leaf 0x2FA18) (.leaf 0x2FA19)) (.node 0x28E2D18881 (.leaf 0x2FA1A) (.leaf 0x2FA1B)))) (.node 0x28E71BAF89 (.node 0x28E70DB389 (.node 0x28E2D18A81 (.leaf 0x2FA1C) (.leaf 0x2FA1D)) (.node 0x28E70DBF89 (.leaf 0x11A07) (.leaf 0x11A08))) (.node 0x28F3CF12ED (.node 0x28E721AF89 (.leaf 0x11A05) (.leaf 0x11A02)) (.node 0x28F6039184 (.leaf 0x75E) (.leaf 0x1D844))))) (nameTree_381)
def nameTree_383 : NameTree := .node 0x29468D48F2 (.node 0x2928D7FBE8 (.node 0x291389D0C7 (.node 0x290F7906D3 (.leaf 0x1F0D8) (.node 0x291054EC81 (.leaf 0x104B6) (.leaf 0xFC31))) (.node 0x292790CFE4 (.node 0x29208406D3 (.leaf 0x2304) (.leaf 0x104CB)) (.node 0x2928D3DCBD (.leaf 0x32C3) (.leaf 0x11737)))) (.node 0x2936B10878 (.node 0x292EFC4F6B (.node 0x292D53AD40 (.leaf 0x725) (.leaf 0xA9C4)) (.node 0x2930522771 (.leaf 0x3270) (.leaf 0x1F52C))) (.node 0x293C4812E2 (.node 0x2938EB429D (.leaf 0x1F881) (.leaf 0x8DB)) (.node 0x29443F051D (.leaf 0x1EE8C) (.leaf 0x1D989))))) (.node 0x29468D4FF2 (.node 0x29468D4BF2 (.node 0x29468D49F2 (.leaf 0x1329B) (.node 0x29468D4AF2 (.leaf 0x1329D) (.leaf 0x1329E))) (.node 0x29468D4DF2 (.node 0x29468D4CF2 (.leaf 0x132A0) (.leaf 0x132A1)) (.node 0x29468D4EF2 (.leaf 0x132A2) (.leaf 0x132A3)))) (.node 0x2949C133BC (.node 0x29468E47F2 (.node 0x29468D50F2 (.leaf 0x132A4) (.leaf 0x132A5)) (.node 0x29468E48F2 (.leaf 0x132A6) (.leaf 0x132A7))) (.node 0x295C26D26F (.node 0x294BAE1EDF (.leaf 0x1BC93) (.leaf 0x16D3)) (.node 0x295D53E018 (.leaf 0x2716) (.leaf 0x1E3C)))))
def nameTree_384 : NameTree := .node 0x299CFB411B (.node 0x299AFB411B (.node 0x2995FB381B (.node 0x298DC6F837 (.leaf 0xA9F7) (.leaf 0x71E)) (.node 0x299605401B (.leaf 0xA6CB) (.leaf 0xA6D9))) (.node 0x299B06341B (.node 0x299AFB471B (.leaf 0xA6D2) (.leaf 0xA6BB)) (.node 0x299C05441B (.leaf 0xA6E9) (.leaf 0xA6DE)))) (.node 0x299FFB381B (.node 0x299E0F3C1B (.node 0x299DFD341B (.leaf 0xA6E2) (.leaf 0xA6D5)) (.node 0x299F0429DE (.leaf 0xA6A8) (.leaf 0x2EEB))) (.node 0x29A08D257E (.node 0x29A00B381B (.leaf 0xA6CA) (.leaf 0xA6C8)) (.node 0x29A0E80E3E (.leaf 0x23DD) (.leaf 0x1D1B8))))
def nameTree_385 : NameTree := .node 0x298D8F8A83 (.node 0x2979D14F5D (.node 0x2973666C59 (.node 0x29624D6D29 (.leaf 0x1F3DD) (.node 0x296B4571E5 (.leaf 0x1F6C6) (.leaf 0x2AE8))) (.node 0x29761C04D7 (.node 0x2974D125FF (.leaf 0x10E79) (.leaf 0x1D02E)) (.node 0x2978272490 (.leaf 0x1F566) (.leaf 0xBF)))) (.node 0x2985F33B2D (.node 0x297DE07E3B (.node 0x297DCF2009 (.leaf 0x29CF) (.leaf 0x1D025)) (.node 0x2985EF372D (.leaf 0xFB96) (.leaf 0x129B))) (.node 0x298605372D (.node 0x2985FD372D (.leaf 0x129C) (.leaf 0x2D89)) (.node 0x2987D287E3 (.leaf 0x129F) (.leaf 0x1F6CD))))) (nameTree_384)
def nameTree_386 : NameTree := .node 0x29C169FB2A (.node 0x29AE974FF0 (.node 0x29A949E121 (.node 0x29A90B441B (.leaf 0xA6BF) (.leaf 0xA6C1)) (.node 0x29AE0F06E8 (.leaf 0x10A39) (.leaf 0x2316))) (.node 0x29B7E0F187 (.node 0x29B25AE13B (.leaf 0x30FF) (.leaf 0xFED0)) (.node 0x29B85DEC38 (.leaf 0x1EBF) (.leaf 0x1D807)))) (.node 0x29C32CF43A (.node 0x29C17DFF2A (.node 0x29C177FB2A (.leaf 0x1D02) (.leaf 0x1D14)) (.node 0x29C1B965BE (.leaf 0xAB51) (.leaf 0x2992))) (.node 0x29C32CF63A (.node 0x29C32CF53A (.leaf 0x2680) (.leaf 0x2681)) (.node 0x29C32CF73A (.leaf 0x2682) (.leaf 0x2683))))
def nameTree_387 : NameTree := .node 0x29A905441B (.node 0x29A30B481B (.node 0x29A1FF3C1B (.node 0x29A1FB381B (.leaf 0xA6D1) (.node 0x29A1FB411B (.leaf 0xA6A5) (.leaf 0xA6E1))) (.node 0x29A2FE421B (.node 0x29A2C15662 (.leaf 0xA6AC) (.leaf 0x1F543)) (.node 0x29A2FE481B (.leaf 0xA6D6) (.leaf 0xA6C0)))) (.node 0x29A3FB471B (.node 0x29A3F7381B (.node 0x29A3F7341B (.leaf 0xA6B4) (.leaf 0xA6B0)) (.node 0x29A3FB411B (.leaf 0xA6A6) (.leaf 0xA6EA))) (.node 0x29A70B381B (.node 0x29A577064B (.leaf 0xA6E8) (.leaf 0x101D8)) (.node 0x29A814AB5E (.leaf 0xA6C9) (.leaf 0x1FE6))))) (nameTree_386)
def nameTree_388 : NameTree := .node 0x2A245CE05A (.node 0x2A1D68F210 (.node 0x2A09D1C2FA (.node 0x2A0601BB94 (.leaf 0x322E) (.leaf 0x3226)) (.node 0x2A1BBBFE66 (.leaf 0xF5C) (.leaf 0x182))) (.node 0x2A1F056517 (.node 0x2A1E2085E1 (.leaf 0x20D8) (.leaf 0x1F7CA)) (.node 0x2A21202D26 (.leaf 0x1251E) (.leaf 0x8E3)))) (.node 0x2A33AF7AD3 (.node 0x2A324AC914 (.node 0x2A2759CCFF (.leaf 0x4DCB) (.leaf 0x122B0)) (.node 0x2A33016317 (.leaf 0x1D927) (.leaf 0x12210))) (.node 0x2A40F8C80F (.node 0x2A396DDAFF (.leaf 0x4D0) (.leaf 0x122B4)) (.node 0x2A42972FAB (.leaf 0x3016) (.leaf 0x254D))))
def nameTree_389 : NameTree := .node 0x2A03FDB78A (.node 0x29E2D991AB (.node 0x29CF65D0FB (.node 0x29C32CF93A (.leaf 0x2684) (.node 0x29C48890F3 (.leaf 0x2685) (.leaf 0x1D996))) (.node 0x29DE4E3988 (.node 0x29DC9D2EC3 (.leaf 0x25D2) (.leaf 0x1F72E)) (.node 0x29DF1FDF97 (.leaf 0x222D) (.leaf 0x1BD)))) (.node 0x29F3D1C2FA (.node 0x29E9DBA661 (.node 0x29E84A791C (.leaf 0x2964) (.leaf 0x12059)) (.node 0x29F0FFB53D (.leaf 0x572) (.leaf 0x3243))) (.node 0x29F80DEFB6 (.node 0x29F587DD6E (.leaf 0xF4D) (.leaf 0x2761)) (.node 0x29F8A54E19 (.leaf 0x1DFB) (.leaf 0xFCCE))))) (nameTree_388)
def nameTree_390 : NameTree := .node 0x2A61496A87 (.node 0x2A468D4DF2 (.node 0x2A468D49F2 (.node 0x2A465213E2 (.leaf 0x1F526) (.node 0x2A468D48F2 (.leaf 0x1EE8D) (.leaf 0x132A8))) (.node 0x2A468D4BF2 (.node 0x2A468D4AF2 (.leaf 0x132A9) (.leaf 0x132AA)) (.node 0x2A468D4CF2 (.leaf 0x132AB) (.leaf 0x132AC)))) (.node 0x2A58C65A29 (.node 0x2A4D47F7C2 (.node 0x2A468D4EF2 (.leaf 0x132AD) (.leaf 0x132AE)) (.node 0x2A567D85FC (.leaf 0x1BE8) (.leaf 0x1C47))) (.node 0x2A5B36182D (.node 0x2A595F87BB (.leaf 0x10E77) (.leaf 0xA990)) (.node 0x2A6122EB7E (.leaf 0xFEF5) (.leaf 0x1D6))))) (.node 0x2A859CA798 (.node 0x2A7930639A (.node 0x2A64C1F706 (.leaf 0xFD71) (.node 0x2A78CC13F1 (.leaf 0x1F3C0) (.leaf 0x2C4))) (.node 0x2A7B8965F4 (.node 0x2A7B5512B6 (.leaf 0x2997) (.leaf 0x203A)) (.node 0x2A822BB15D (.leaf 0x1F76D) (.leaf 0xAB42)))) (.node 0x2AA5F26384 (.node 0x2A9805783C (.node 0x2A8876C0D7 (.leaf 0x12B) (.leaf 0x2E28)) (.node 0x2AA4E04E23 (.leaf 0x177) (.leaf 0x21D5))) (.node 0x2AA9B80EDC (.node 0x2AA8D3EC37 (.leaf 0xD7CC) (.leaf 0x11D23)) (.node 0x2AA9BEC9A2 (.leaf 0x1146) (.leaf 0x1DA3C)))))
def nameTree_391 : NameTree := .node 0x2AC79100D4 (.node 0x2ABAD3EC37 (.node 0x2AB9D67E23 (.node 0x2AB9D3EC37 (.leaf 0x9A0) (.leaf 0x11D29)) (.node 0x2AB9DEEC37 (.leaf 0xFC8A) (.leaf 0x11D2A))) (.node 0x2ABADFEC37 (.node 0x2ABADDEC37 (.leaf 0x11D1C) (.leaf 0x11D30)) (.node 0x2ABC7FEEC8 (.leaf 0x11D16) (.leaf 0x2C13)))) (.node 0x2AD97565DF (.node 0x2ACC74AC20 (.node 0x2AC7D62AFD (.leaf 0x2C77) (.leaf 0x2CD0)) (.node 0x2ACF31A3C3 (.leaf 0x27B) (.leaf 0x1D075))) (.node 0x2AE52FF82F (.node 0x2ADBC4E70A (.leaf 0x1423) (.leaf 0x1F312)) (.node 0x2AE577F654 (.leaf 0x33A1) (.leaf 0x2A48))))
def nameTree_392 : NameTree := .node 0x2AB9425175 (.node 0x2AB1D3EC37 (.node 0x2AABCA6384 (.node 0x2AAACFEC37 (.leaf 0x11D12) (.node 0x2AAAD3EC37 (.leaf 0x11D18) (.leaf 0x11D1E))) (.node 0x2AAF0F187E (.node 0x2AADD3EC37 (.leaf 0x11C9) (.leaf 0x11D0F)) (.node 0x2AB0D3EC37 (.leaf 0x27BF) (.leaf 0x11D14)))) (.node 0x2AB4D2EC37 (.node 0x2AB2D7EC37 (.node 0x2AB1F4DA4E (.leaf 0x11D0D) (.leaf 0x2D7)) (.node 0x2AB3C167E7 (.leaf 0x11D2D) (.leaf 0xFEE8))) (.node 0x2AB4E4EC37 (.node 0x2AB4D9EC37 (.leaf 0x11D10) (.leaf 0x11D1A)) (.node 0x2AB6D3EC37 (.leaf 0x11D15) (.leaf 0x11D21))))) (nameTree_391)
def nameTree_393 : NameTree := .node 0x2B1C377C86 (.node 0x2B1A433C32 (.node 0x2B189178F5 (.node 0x2B181749B9 (.leaf 0x122C8) (.leaf 0x235E)) (.node 0x2B18EA90FF (.leaf 0x46B) (.leaf 0x122CA))) (.node 0x2B1B8AFE52 (.node 0x2B1A4E3C32 (.leaf 0x1D711) (.leaf 0x1D713)) (.node 0x2B1BE294FF (.leaf 0x33EA) (.leaf 0x122CB)))) (.node 0x2B20F68EFF (.node 0x2B1DE88BFF (.node 0x2B1C434232 (.leaf 0x40D) (.leaf 0x1D70C)) (.node 0x2B1E3C4832 (.leaf 0x122CC) (.leaf 0x1D70F))) (.node 0x2B22C9D851 (.node 0x2B21F689FF (.leaf 0x122CF) (.leaf 0x122D0)) (.node 0x2B27E28EFF (.leaf 0x25A9) (.leaf 0x122D1))))
def nameTree_394 : NameTree := .node 0x2B16E28EFF (.node 0x2B01E87088 (.node 0x2AF6F46E0A (.node 0x2AF2484843 (.leaf 0x25D0) (.node 0x2AF2F95B0A (.leaf 0x229D) (.leaf 0x33F4))) (.node 0x2AF9473238 (.node 0x2AF802650A (.leaf 0x33F9) (.leaf 0x33F5)) (.node 0x2B00267A9F (.leaf 0x2A8D) (.leaf 0x1D8BC)))) (.node 0x2B0D433C32 (.node 0x2B02695F6A (.node 0x2B01E9D359 (.leaf 0x48A) (.leaf 0x2311)) (.node 0x2B0A53C125 (.leaf 0x1CB) (.leaf 0x16B7))) (.node 0x2B11A1120F (.node 0x2B0F4F3432 (.leaf 0x1D712) (.leaf 0x1D702)) (.node 0x2B139F260F (.leaf 0x33EB) (.leaf 0x33F3))))) (nameTree_393)
def nameTree_395 : NameTree := .node 0x2B468E48F2 (.node 0x2B468D4EF2 (.node 0x2B468D4CF2 (.node 0x2B468D4BF2 (.leaf 0x132B2) (.leaf 0x132B5)) (.node 0x2B468D4DF2 (.leaf 0x132B6) (.leaf 0x132B7))) (.node 0x2B468D50F2 (.node 0x2B468D4FF2 (.leaf 0x132B8) (.leaf 0x132B9)) (.node 0x2B468E47F2 (.leaf 0x132BA) (.leaf 0x132BB)))) (.node 0x2B468E4CF2 (.node 0x2B468E4AF2 (.node 0x2B468E49F2 (.leaf 0x132BD) (.leaf 0x132BE)) (.node 0x2B468E4BF2 (.leaf 0x132BF) (.leaf 0x132C0))) (.node 0x2B468E4EF2 (.node 0x2B468E4DF2 (.leaf 0x132C1) (.leaf 0x132C2)) (.node 0x2B468E4FF2 (.leaf 0x132C4) (.leaf 0x132C5))))
def nameTree_396 : NameTree := .node 0x2B468D4AF2 (.node 0x2B3BEA405C (.node 0x2B338E54A4 (.node 0x2B304ED7DC (.leaf 0x202) (.node 0x2B32F4445E (.leaf 0x1CEA) (.leaf 0x10BAF))) (.node 0x2B37A0A796 (.node 0x2B376CF372 (.leaf 0x1DA3E) (.leaf 0x1E8C9)) (.node 0x2B391CA218 (.leaf 0x10A40) (.leaf 0x1D0B7)))) (.node 0x2B3E601917 (.node 0x2B3CB5FD12 (.node 0x2B3CA9B196 (.leaf 0x1AB0) (.leaf 0x10A41)) (.node 0x2B3E5A1317 (.leaf 0xAF0) (.leaf 0x9E3))) (.node 0x2B468D48F2 (.node 0x2B410715AD (.leaf 0x9C4) (.leaf 0x1D016)) (.node 0x2B468D49F2 (.leaf 0x132AF) (.leaf 0x132B0))))) (nameTree_395)
def nameTree_397 : NameTree := .node 0x2B7505372D (.node 0x2B62373EEA (.node 0x2B5D6DD802 (.node 0x2B5B9CFFD1 (.leaf 0xFD3F) (.leaf 0x1F92)) (.node 0x2B60853DC6 (.leaf 0x2F35) (.leaf 0x120FF))) (.node 0x2B74F33B2D (.node 0x2B74EF372D (.leaf 0x1220B) (.leaf 0x1333)) (.node 0x2B74FD372D (.leaf 0x1334) (.leaf 0x2D91)))) (.node 0x2B79967C5C (.node 0x2B798E6E5C (.node 0x2B798E6B5C (.leaf 0x1337) (.leaf 0x122AE)) (.node 0x2B7992865C (.leaf 0x122B7) (.leaf 0x122BF))) (.node 0x2B79968A5C (.node 0x2B7996855C (.leaf 0x122C3) (.leaf 0x122C6)) (.node 0x2B79A26A5C (.leaf 0x122D3) (.leaf 0x122D9))))
def nameTree_398 : NameTree := .node 0x2B546936C8 (.node 0x2B468F4DF2 (.node 0x2B468F49F2 (.node 0x2B468F47F2 (.leaf 0x132C6) (.node 0x2B468F48F2 (.leaf 0x132C7) (.leaf 0x132C8))) (.node 0x2B468F4BF2 (.node 0x2B468F4AF2 (.leaf 0x132C9) (.leaf 0x132CA)) (.node 0x2B468F4CF2 (.leaf 0x132CB) (.leaf 0x132CC)))) (.node 0x2B4BFC2533 (.node 0x2B468F4FF2 (.node 0x2B468F4EF2 (.leaf 0x132CD) (.leaf 0x132CE)) (.node 0x2B468F50F2 (.leaf 0x132CF) (.leaf 0x132D0))) (.node 0x2B5303DEAD (.node 0x2B4EFE6B3C (.leaf 0xFF09) (.leaf 0x2A87)) (.node 0x2B530A9056 (.leaf 0x1D9CE) (.leaf 0x773))))) (nameTree_397)
def nameTree_399 : NameTree := .node 0x2BB7AAFE6D (.node 0x2BA7545FFD (.node 0x2B9DA0F8D0 (.node 0x2B8ADC14F2 (.leaf 0x104C2) (.leaf 0x104CE)) (.node 0x2BA5623845 (.leaf 0x223A) (.leaf 0xFDB6))) (.node 0x2BAC6DC077 (.node 0x2BA9102A79 (.leaf 0xF0C) (.leaf 0x2E16)) (.node 0x2BB393F115 (.leaf 0x2C9F) (.leaf 0x696)))) (.node 0x2BCE806198 (.node 0x2BC0B1EFD4 (.node 0x2BBA8B83EC (.leaf 0x180D) (.leaf 0x10B69)) (.node 0x2BCAD187AA (.leaf 0xFB3E) (.leaf 0x4DDB))) (.node 0x2BCE836198 (.node 0x2BCE826198 (.leaf 0x16A44) (.leaf 0x16A45)) (.node 0x2BCE896F98 (.leaf 0x16A56) (.leaf 0x16A59))))
def nameTree_400 : NameTree := .node 0x2B8ADC0EF2 (.node 0x2B83F33B2D (.node 0x2B7CDEFA17 (.node 0x2B7A986A5C (.leaf 0x122DE) (.node 0x2B7BC440A0 (.leaf 0x122E0) (.leaf 0x6FF))) (.node 0x2B819A8436 (.node 0x2B7F001856 (.leaf 0x2FF7) (.leaf 0x1F3F0)) (.node 0x2B82838126 (.leaf 0x31E) (.leaf 0x16B27)))) (.node 0x2B88CC2B92 (.node 0x2B86916A5C (.node 0x2B8619EDF2 (.leaf 0x138E) (.leaf 0x1E947)) (.node 0x2B869F715C (.leaf 0x122E5) (.leaf 0x122EA))) (.node 0x2B8ADC04F2 (.node 0x2B8ADC00F2 (.leaf 0x1D7AA) (.leaf 0x104B0)) (.node 0x2B8ADC08F2 (.leaf 0x104B7) (.leaf 0x104BB))))) (nameTree_399)
def nameTree_401 : NameTree := .node 0x2BFD299CC7 (.node 0x2BFCA2B074 (.node 0x2BF4998B82 (.node 0x2BF436A6AB (.leaf 0x11035) (.leaf 0x260F)) (.node 0x2BF9407CF6 (.leaf 0x1D6A9) (.leaf 0x1B34))) (.node 0x2BFD2990C7 (.node 0x2BFCA6B074 (.leaf 0x328B) (.leaf 0x3284)) (.node 0x2BFD2998C7 (.leaf 0xA6A0) (.leaf 0xA6A9)))) (.node 0x2C0372A5D7 (.node 0x2BFD29A4C7 (.node 0x2BFD299EC7 (.leaf 0xA6B3) (.leaf 0xA6A7)) (.node 0x2C02A5BD74 (.leaf 0xA6A2) (.leaf 0x3283))) (.node 0x2C0E32A905 (.node 0x2C04D92EC9 (.leaf 0x1F894) (.leaf 0x1D8DE)) (.node 0x2C10CAC5AD (.leaf 0x2FCB) (.leaf 0x11117))))
def nameTree_402 : NameTree := .node 0x2BF1EDD733 (.node 0x2BCE956198 (.node 0x2BCE8E6198 (.node 0x2BCE8D6C98 (.leaf 0x16A5B) (.node 0x2BCE8D6F98 (.leaf 0x16A4D) (.leaf 0x16A51))) (.node 0x2BCE906F98 (.node 0x2BCE906998 (.leaf 0x16A50) (.leaf 0x16A5D)) (.node 0x2BCE926198 (.leaf 0x16A53) (.leaf 0x16A40)))) (.node 0x2BD1B7D3E3 (.node 0x2BCFF41E29 (.node 0x2BCE976F98 (.leaf 0x16A57) (.leaf 0x16A42)) (.node 0x2BCFF42129 (.leaf 0xAA7C) (.leaf 0xAA7D))) (.node 0x2BE98BBC28 (.node 0x2BE92594D1 (.leaf 0x1D0C4) (.leaf 0x1D924)) (.node 0x2BEFCE6937 (.leaf 0x2DA) (.leaf 0x2A29))))) (nameTree_401)
def nameTree_403 : NameTree := .node 0x2C468E47F2 (.node 0x2C468D4DF2 (.node 0x2C468D4BF2 (.node 0x2C468D4AF2 (.leaf 0x132D2) (.leaf 0x132D4)) (.node 0x2C468D4CF2 (.leaf 0x132D5) (.leaf 0x132D6))) (.node 0x2C468D4FF2 (.node 0x2C468D4EF2 (.leaf 0x132D7) (.leaf 0x132D9)) (.node 0x2C468D50F2 (.leaf 0x132DA) (.leaf 0x132DB)))) (.node 0x2C468E4BF2 (.node 0x2C468E49F2 (.node 0x2C468E48F2 (.leaf 0x132DC) (.leaf 0x132DD)) (.node 0x2C468E4AF2 (.leaf 0x132DE) (.leaf 0x132DF))) (.node 0x2C468E4DF2 (.node 0x2C468E4CF2 (.leaf 0x132E0) (.leaf 0x132E3)) (.node 0x2C468E4EF2 (.leaf 0x132E4) (.leaf 0x132E5))))
def nameTree_404 : NameTree := .node 0x2C468D49F2 (.node 0x2C2C6FFD59 (.node 0x2C1CCAC5AD (.node 0x2C18CEE0ED (.leaf 0x114C7) (.node 0x2C1BB22883 (.leaf 0x27F6) (.leaf 0x122F1))) (.node 0x2C28C59C19 (.node 0x2C24D3D414 (.leaf 0x11111) (.leaf 0x11733)) (.node 0x2C2AC24313 (.leaf 0x243) (.leaf 0xFC42)))) (.node 0x2C3A347928 (.node 0x2C336FF613 (.node 0x2C3367F613 (.leaf 0x1E8CE) (.leaf 0x10B84)) (.node 0x2C39D9CA95 (.leaf 0x10B8E) (.leaf 0x2DF3))) (.node 0x2C4682FAB4 (.node 0x2C40AF79DB (.leaf 0x1F438) (.leaf 0x1D78A)) (.node 0x2C468D48F2 (.leaf 0x112D) (.leaf 0x132D1))))) (nameTree_403)
def nameTree_405 : NameTree := .node 0x28DAE28781 (.node 0x28D9E37A81 (.node 0x28D9D47F81 (.node 0x28D9D08881 (.node 0x28A5BA3528 (nameTree_348) (nameTree_350)) (.node 0x28D9D28781 (nameTree_352) (nameTree_354))) (.node 0x28D9D87C81 (.node 0x28D9D67D81 (nameTree_355) (nameTree_357)) (.node 0x28D9E17B81 (nameTree_359) (nameTree_361)))) (.node 0x28DAD38C81 (.node 0x28DAD07781 (.node 0x28D9E57881 (nameTree_362) (nameTree_364)) (.node 0x28DAD27681 (nameTree_366) (nameTree_368))) (.node 0x28DAD78981 (.node 0x28DAD58A81 (nameTree_369) (nameTree_371)) (.node 0x28DAD98881 (nameTree_373) (nameTree_375))))) (.node 0x2A43F1AD1B (.node 0x290B6A648D (.node 0x28DAE67D81 (.node 0x28DAE47E81 (nameTree_376) (nameTree_378)) (.node 0x28E2D17B81 (nameTree_380) (nameTree_382))) (.node 0x29A1F7381B (.node 0x295DFA36A6 (nameTree_383) (nameTree_385)) (.node 0x29C32CF83A (nameTree_387) (nameTree_389)))) (.node 0x2B468E50F2 (.node 0x2AEE7775DE (.node 0x2AA9D3EC37 (nameTree_390) (nameTree_392)) (.node 0x2B2D0F5738 (nameTree_394) (nameTree_396))) (.node 0x2BCE8A6198 (.node 0x2B7A946C5C (nameTree_398) (nameTree_400)) (.node 0x2C16EE08BF (nameTree_402) (nameTree_404)))))
def nameTree_406 : NameTree := .node 0x2C46904AF2 (.node 0x2C468F4CF2 (.node 0x2C468F48F2 (.node 0x2C468E50F2 (.leaf 0x132E7) (.node 0x2C468F47F2 (.leaf 0x132E8) (.leaf 0x132E9))) (.node 0x2C468F4AF2 (.node 0x2C468F49F2 (.leaf 0x132EA) (.leaf 0x132EB)) (.node 0x2C468F4BF2 (.leaf 0x132EC) (.leaf 0x132ED)))) (.node 0x2C468F50F2 (.node 0x2C468F4EF2 (.node 0x2C468F4DF2 (.leaf 0x132EE) (.leaf 0x132EF)) (.node 0x2C468F4FF2 (.leaf 0x132F2) (.leaf 0x132F3))) (.node 0x2C469048F2 (.node 0x2C469047F2 (.leaf 0x132F4) (.leaf 0x132F5)) (.node 0x2C469049F2 (.leaf 0x132F6) (.leaf 0x132F7))))) (.node 0x2C469147F2 (.node 0x2C46904DF2 (.node 0x2C46904BF2 (.leaf 0x132F8) (.node 0x2C46904CF2 (.leaf 0x132F9) (.leaf 0x132FA))) (.node 0x2C46904FF2 (.node 0x2C46904EF2 (.leaf 0x132FC) (.leaf 0x132FD)) (.node 0x2C469050F2 (.leaf 0x132FE) (.leaf 0x132FF)))) (.node 0x2C46914BF2 (.node 0x2C469149F2 (.node 0x2C469148F2 (.leaf 0x13300) (.leaf 0x13301)) (.node 0x2C46914AF2 (.leaf 0x13302) (.leaf 0x13303))) (.node 0x2C46914DF2 (.node 0x2C46914CF2 (.leaf 0x13304) (.leaf 0x13305)) (.node 0x2C46CCE983 (.leaf 0x13306) (.leaf 0x115DC)))))
def nameTree_407 : NameTree := .node 0x2C6E9E4224 (.node 0x2C6CCF20B7 (.node 0x2C6AF436AC (.node 0x2C68142B9B (.leaf 0x16818) (.leaf 0x1E943)) (.node 0x2C6C0D419B (.leaf 0xA0) (.leaf 0x1E931))) (.node 0x2C6E10055C (.node 0x2C6DBA462E (.leaf 0x1D02D) (.leaf 0x205)) (.node 0x2C6E142F9B (.leaf 0x1F3E0) (.leaf 0x1E930)))) (.node 0x2C72986C5C (.node 0x2C70D620B7 (.node 0x2C6F0D369B (.leaf 0x1F55A) (.leaf 0x1E941)) (.node 0x2C71417032 (.leaf 0x1D014) (.leaf 0x1F31A))) (.node 0x2C74F33B2D (.node 0x2C74EF372D (.leaf 0x122FA) (.leaf 0x1253)) (.node 0x2C7505372D (.leaf 0x1254) (.leaf 0x1258))))
def nameTree_408 : NameTree := .node 0x2C65AB2C00 (.node 0x2C600D309B (.node 0x2C59142B9B (.node 0x2C57142F9B (.leaf 0x1135E) (.node 0x2C5814339B (.leaf 0x1E929) (.leaf 0x1E937))) (.node 0x2C5BC31EFD (.node 0x2C593770EE (.leaf 0x1E92F) (.leaf 0x1D12A)) (.node 0x2C5C0E2F9B (.leaf 0x1F4FC) (.leaf 0x1E940)))) (.node 0x2C61DC3566 (.node 0x2C601C399B (.node 0x2C60142B9B (.leaf 0x1E933) (.leaf 0x1E93F)) (.node 0x2C613E5D43 (.leaf 0x1E942) (.leaf 0x322))) (.node 0x2C6321389B (.node 0x2C63142B9B (.leaf 0x122B1) (.leaf 0x1E93D)) (.node 0x2C63252B9B (.leaf 0x1E932) (.leaf 0x1E93B))))) (nameTree_407)
def nameTree_409 : NameTree := .node 0x2C960732DB (.node 0x2C8BB8DDAB (.node 0x2C8BB3F1AB (.node 0x2C8BAAE1AB (.leaf 0x3095) (.leaf 0x3096)) (.node 0x2C8BB6DDAB (.leaf 0x3063) (.leaf 0x308E))) (.node 0x2C8BB8F1AB (.node 0x2C8BB8EBAB (.leaf 0x3083) (.leaf 0x3087)) (.node 0x2C8E12AF1D (.leaf 0x3085) (.leaf 0x1D01D)))) (.node 0x2CACC38E46 (.node 0x2CA2F5A6AC (.node 0x2CA05DF442 (.leaf 0x687) (.leaf 0x2210)) (.node 0x2CAC219D80 (.leaf 0x16813) (.leaf 0x2B83))) (.node 0x2CAD9E2774 (.node 0x2CAD730BF4 (.leaf 0x723) (.leaf 0x101E5)) (.node 0x2CB5EC3DDF (.leaf 0x2E3A) (.leaf 0x116C5))))
def nameTree_410 : NameTree := .node 0x2C8BAADDAB (.node 0x2C83EF372D (.node 0x2C7A915CB9 (.node 0x2C75053F2D (.leaf 0x125D) (.node 0x2C77455089 (.leaf 0x125A) (.leaf 0x1F3F9))) (.node 0x2C7DCB3054 (.node 0x2C7DBFF727 (.leaf 0xFBA2) (.leaf 0x1D092)) (.node 0x2C7F8E9F01 (.leaf 0x1D7C2) (.leaf 0x1D043)))) (.node 0x2C8611A2DA (.node 0x2C85EF372D (.node 0x2C83F33B2D (.leaf 0x124B) (.leaf 0x124C)) (.node 0x2C85F33B2D (.leaf 0x2DC3) (.leaf 0x2DC4))) (.node 0x2C8802B2F8 (.node 0x2C86946A5C (.leaf 0x2637) (.leaf 0x12306)) (.node 0x2C898F81DA (.leaf 0x2635) (.leaf 0xA9F3))))) (nameTree_409)
def nameTree_411 : NameTree := .node 0x2CFDA1F4D7 (.node 0x2CE9DFAA61 (.node 0x2CE5B1E4D4 (.node 0x2CDD5E7363 (.leaf 0x6E3) (.leaf 0x1D9D2)) (.node 0x2CE8C6AEFC (.leaf 0x115D9) (.leaf 0x1D735))) (.node 0x2CFC095E0D (.node 0x2CEE5E471D (.leaf 0x57B) (.leaf 0x2A37)) (.node 0x2CFD9EBB53 (.leaf 0x1D8E5) (.leaf 0xC0)))) (.node 0x2D0251E2D1 (.node 0x2D019EB9A0 (.node 0x2D009BA40D (.leaf 0x2080) (.leaf 0xC02)) (.node 0x2D0201B2EB (.leaf 0x102) (.leaf 0x3222))) (.node 0x2D0251EAD1 (.node 0x2D0251E6D1 (.leaf 0x11600) (.leaf 0x1160A)) (.node 0x2D0251F0D1 (.leaf 0x11602) (.leaf 0x1160C))))
def nameTree_412 : NameTree := .node 0x2CDAAC7F23 (.node 0x2CC9D115A5 (.node 0x2CBE79F353 (.node 0x2CB9790589 (.leaf 0xAAF1) (.node 0x2CBBEB4ADF (.leaf 0x101F8) (.leaf 0x116C4))) (.node 0x2CC9D101A5 (.node 0x2CC5EC4285 (.leaf 0x1DA2B) (.leaf 0x2F0C)) (.node 0x2CC9D109A5 (.leaf 0x1BC0) (.leaf 0x1BE4)))) (.node 0x2CD62B76D2 (.node 0x2CD1327C5B (.node 0x2CCF2D2C61 (.leaf 0x1BE5) (.leaf 0x2B2E)) (.node 0x2CD52D8F5B (.leaf 0xA9F1) (.leaf 0xA9F6))) (.node 0x2CD7D842BC (.node 0x2CD63B865B (.leaf 0x1E8D3) (.leaf 0xA9F2)) (.node 0x2CD9FC7409 (.leaf 0x1D14E) (.leaf 0xFB72))))) (nameTree_411)
def nameTree_413 : NameTree := .node 0x2D468D49F2 (.node 0x2D292ECC71 (.node 0x2D2356CC71 (.node 0x2D18CB45DD (.leaf 0x11604) (.node 0x2D19D6DDFB (.leaf 0x2C62) (.leaf 0x11738))) (.node 0x2D27CECC71 (.node 0x2D2616CC71 (.leaf 0x3269) (.leaf 0x326A)) (.node 0x2D27DD5248 (.leaf 0x326C) (.leaf 0x724)))) (.node 0x2D39590B48 (.node 0x2D31B6F81D (.node 0x2D2E330B44 (.leaf 0x326B) (.leaf 0x1D934)) (.node 0x2D350A19EE (.leaf 0x1173E) (.leaf 0x2AA4))) (.node 0x2D43FDB5A6 (.node 0x2D420EB37A (.leaf 0x2A95) (.leaf 0x10415)) (.node 0x2D468D48F2 (.leaf 0x2301) (.leaf 0x13307))))) (.node 0x2D468D50F2 (.node 0x2D468D4CF2 (.node 0x2D468D4AF2 (.leaf 0x13308) (.node 0x2D468D4BF2 (.leaf 0x13309) (.leaf 0x1330B))) (.node 0x2D468D4EF2 (.node 0x2D468D4DF2 (.leaf 0x1330C) (.leaf 0x1330D)) (.node 0x2D468D4FF2 (.leaf 0x1330E) (.leaf 0x13310)))) (.node 0x2D468E4AF2 (.node 0x2D468E48F2 (.node 0x2D468E47F2 (.leaf 0x13312) (.leaf 0x13314)) (.node 0x2D468E49F2 (.leaf 0x13315) (.leaf 0x13317))) (.node 0x2D468E4CF2 (.node 0x2D468E4BF2 (.leaf 0x13318) (.leaf 0x13319)) (.node 0x2D468E4DF2 (.leaf 0x1331A) (.leaf 0x1331B)))))
def nameTree_414 : NameTree := .node 0x2D4E102E97 (.node 0x2D46904DF2 (.node 0x2D46904BF2 (.node 0x2D46904AF2 (.leaf 0x1332C) (.leaf 0x1332E)) (.node 0x2D46904CF2 (.leaf 0x13330) (.leaf 0x13331))) (.node 0x2D4D61B244 (.node 0x2D4BDEFE46 (.leaf 0x13332) (.leaf 0xA70D)) (.node 0x2D4D73213C (.leaf 0x26D0) (.leaf 0xFEDF)))) (.node 0x2D56D5850E (.node 0x2D524574AC (.node 0x2D5117ED40 (.leaf 0x124F5) (.leaf 0x1D1E5)) (.node 0x2D527D7D53 (.leaf 0x1F996) (.leaf 0x1C43))) (.node 0x2D73E2BB53 (.node 0x2D707BB95A (.leaf 0x10448) (.leaf 0x1F74B)) (.node 0x2D74E52035 (.leaf 0xC8) (.leaf 0x1F3AE))))
def nameTree_415 : NameTree := .node 0x2D469049F2 (.node 0x2D468F4BF2 (.node 0x2D468F47F2 (.node 0x2D468E4FF2 (.leaf 0x1331D) (.node 0x2D468E50F2 (.leaf 0x1331E) (.leaf 0x1331F))) (.node 0x2D468F49F2 (.node 0x2D468F48F2 (.leaf 0x13320) (.leaf 0x13321)) (.node 0x2D468F4AF2 (.leaf 0x13322) (.leaf 0x13323)))) (.node 0x2D468F4FF2 (.node 0x2D468F4DF2 (.node 0x2D468F4CF2 (.leaf 0x13324) (.leaf 0x13325)) (.node 0x2D468F4EF2 (.leaf 0x13326) (.leaf 0x13327))) (.node 0x2D469047F2 (.node 0x2D468F50F2 (.leaf 0x13328) (.leaf 0x13329)) (.node 0x2D469048F2 (.leaf 0x1332A) (.leaf 0x1332B))))) (nameTree_414)
def nameTree_416 : NameTree := .node 0x2D80ADB977 (.node 0x2D7DD2D4BB (.node 0x2D7B2BD67C (.node 0x2D7B28D67C (.leaf 0x1710) (.leaf 0x1706)) (.node 0x2D7B2DD67C (.leaf 0x170F) (.leaf 0x170C))) (.node 0x2D7E928BC1 (.node 0x2D7E1B4938 (.leaf 0x1F50D) (.leaf 0x2AA3)) (.node 0x2D7EA2855C (.leaf 0xA9F8) (.leaf 0x12323)))) (.node 0x2D8495905C (.node 0x2D83966B5C (.node 0x2D8349BF03 (.leaf 0xB83) (.leaf 0x35)) (.node 0x2D84956A5C (.leaf 0x12336) (.leaf 0x12357))) (.node 0x2D8948CC03 (.node 0x2D84E126C1 (.leaf 0x12356) (.leaf 0x10089)) (.node 0x2D94701B64 (.leaf 0x34) (.leaf 0x2F1E))))
def nameTree_417 : NameTree := .node 0x2D7B27D67C (.node 0x2D7B18D67C (.node 0x2D781EA869 (.node 0x2D77CE2347 (.leaf 0x1231C) (.node 0x2D77E2B9A0 (.leaf 0x1D086) (.leaf 0x114))) (.node 0x2D79DBEA13 (.node 0x2D7846D985 (.leaf 0xFD2E) (.leaf 0xFD32)) (.node 0x2D7B16D67C (.leaf 0x1F42F) (.leaf 0x170A)))) (.node 0x2D7B20D67C (.node 0x2D7B1CD67C (.node 0x2D7B1BD67C (.leaf 0x1707) (.leaf 0x1704)) (.node 0x2D7B1FD67C (.leaf 0x1711) (.leaf 0x1703))) (.node 0x2D7B22D67C (.node 0x2D7B21D67C (.leaf 0x170E) (.leaf 0x170B)) (.node 0x2D7B24D67C (.leaf 0x1708) (.leaf 0x1709))))) (nameTree_416)
def nameTree_418 : NameTree := .node 0x2DD337EB87 (.node 0x2DCC4BEC87 (.node 0x2DCB37EA87 (.node 0x2DC5E3602C (.leaf 0x317B) (.leaf 0x317D)) (.node 0x2DCB4BF187 (.leaf 0x1229A) (.leaf 0x1229B))) (.node 0x2DCE4BED87 (.node 0x2DCE01FE37 (.leaf 0x1229C) (.leaf 0x1F606)) (.node 0x2DD248A830 (.leaf 0x1229E) (.leaf 0x16802)))) (.node 0x2DD549E787 (.node 0x2DD3D1B53C (.node 0x2DD34B9CE1 (.leaf 0x1229F) (.leaf 0x27B6)) (.node 0x2DD437E187 (.leaf 0x1689F) (.leaf 0x122A1))) (.node 0x2DD874DE1D (.node 0x2DD6CD5281 (.leaf 0x122A6) (.leaf 0x1DA75)) (.node 0x2DE084CCBE (.leaf 0x1DA38) (.leaf 0x1D845))))
def nameTree_419 : NameTree := .node 0x2DC5E35D7E (.node 0x2DAD2D695A (.node 0x2D9DCD02BF (.node 0x2D9652C955 (.leaf 0x1E00E) (.node 0x2D9D73CF02 (.leaf 0x1D9FA) (.leaf 0x17DB))) (.node 0x2DA4B646E2 (.node 0x2DA0E86334 (.leaf 0x222E) (.leaf 0x1D1D5)) (.node 0x2DA73D653A (.leaf 0x20EA) (.leaf 0x29BC)))) (.node 0x2DBF4C68AF (.node 0x2DB782F51F (.node 0x2DB304B9A0 (.leaf 0x1F0A9) (.leaf 0x11E)) (.node 0x2DBB38A89D (.leaf 0x2C14) (.leaf 0x1F0B9))) (.node 0x2DC44BE187 (.node 0x2DBF8E72D3 (.leaf 0x103CB) (.leaf 0x2B51)) (.node 0x2DC5E34EC1 (.leaf 0x12298) (.leaf 0x317E))))) (nameTree_418)
def nameTree_420 : NameTree := .node 0x2E0DC1AA2C (.node 0x2DFA17E3B1 (.node 0x2DF3EFD733 (.node 0x2DEE26B9A0 (.leaf 0xCC) (.node 0x2DEFEBA178 (.leaf 0x12C) (.leaf 0xFF9F))) (.node 0x2DF704BCD2 (.node 0x2DF4A6B074 (.leaf 0x11037) (.leaf 0x3292)) (.node 0x2DF8E81115 (.leaf 0x3227) (.leaf 0x12474)))) (.node 0x2DFFF4E7F7 (.node 0x2DFCE98AA8 (.node 0x2DFC97B374 (.leaf 0x1F935) (.leaf 0x32A4)) (.node 0x2DFDD8C62E (.leaf 0x1F634) (.leaf 0x2B70))) (.node 0x2E0DABAA2C (.node 0x2E036D42DA (.leaf 0x1D8B1) (.leaf 0x1E52)) (.node 0x2E0DC0AA2C (.leaf 0x11A7A) (.leaf 0x11A72))))) (.node 0x2E0DCBAA2C (.node 0x2E0DC6AA2C (.node 0x2E0DC2AA2C (.leaf 0x11A61) (.node 0x2E0DC5AA2C (.leaf 0x11A6D) (.leaf 0x11A5E))) (.node 0x2E0DC9AA2C (.node 0x2E0DC8AA2C (.leaf 0x11A82) (.leaf 0x11A63)) (.node 0x2E0DCAAA2C (.leaf 0x11A5C) (.leaf 0x11A7D)))) (.node 0x2E0DD1AA2C (.node 0x2E0DCEAA2C (.node 0x2E0DCCAA2C (.leaf 0x11A74) (.leaf 0x11A6F)) (.node 0x2E0DD0AA2C (.leaf 0x11A70) (.leaf 0x11A7C))) (.node 0x2E0DD4AA2C (.node 0x2E0DD2AA2C (.leaf 0x11A81) (.leaf 0x11A6B)) (.node 0x2E0DD7AA2C (.leaf 0x11A7E) (.leaf 0x11A7B)))))
def nameTree_421 : NameTree := .node 0x2E468E4CF2 (.node 0x2E468E48F2 (.node 0x2E468D50F2 (.node 0x2E468D4FF2 (.leaf 0x1333B) (.leaf 0x1333C)) (.node 0x2E468E47F2 (.leaf 0x1333D) (.leaf 0x1333E))) (.node 0x2E468E4AF2 (.node 0x2E468E49F2 (.leaf 0x1333F) (.leaf 0x13340)) (.node 0x2E468E4BF2 (.leaf 0x13341) (.leaf 0x13342)))) (.node 0x2E468E50F2 (.node 0x2E468E4EF2 (.node 0x2E468E4DF2 (.leaf 0x13343) (.leaf 0x13344)) (.node 0x2E468E4FF2 (.leaf 0x13345) (.leaf 0x13346))) (.node 0x2E468F48F2 (.node 0x2E468F47F2 (.leaf 0x13347) (.leaf 0x13348)) (.node 0x2E468F49F2 (.leaf 0x13349) (.leaf 0x1334A))))
def nameTree_422 : NameTree := .node 0x2E468D4EF2 (.node 0x2E34DB38FF (.node 0x2E26F018D6 (.node 0x2E1D86BF5F (.leaf 0x11A79) (.node 0x2E1F35508B (.leaf 0x321A) (.leaf 0x1F6A0))) (.node 0x2E2EF6E44D (.node 0x2E2E3C925F (.leaf 0xA830) (.leaf 0x1F4CB)) (.node 0x2E3050266C (.leaf 0x316D) (.leaf 0x1F3A4)))) (.node 0x2E468D4AF2 (.node 0x2E468D48F2 (.node 0x2E3BE3DA7C (.leaf 0x693) (.leaf 0x2DF8)) (.node 0x2E468D49F2 (.leaf 0x13333) (.leaf 0x13334))) (.node 0x2E468D4CF2 (.node 0x2E468D4BF2 (.leaf 0x13335) (.leaf 0x13336)) (.node 0x2E468D4DF2 (.leaf 0x13337) (.leaf 0x13338))))) (nameTree_421)
def nameTree_423 : NameTree := .node 0x2E4CD1615A (.node 0x2E469149F2 (.node 0x2E469147F2 (.node 0x2E469050F2 (.leaf 0x1335D) (.leaf 0x1335E)) (.node 0x2E469148F2 (.leaf 0x1335F) (.leaf 0x13360))) (.node 0x2E479CAA60 (.node 0x2E4780873A (.leaf 0x13361) (.leaf 0x1C48)) (.node 0x2E493A9860 (.leaf 0x256) (.leaf 0x27D)))) (.node 0x2E5D6101A1 (.node 0x2E5D5FF9A1 (.node 0x2E51AA2285 (.leaf 0x1245E) (.leaf 0x11A17)) (.node 0x2E5D6000A1 (.leaf 0x118D6) (.leaf 0x118D5))) (.node 0x2E5D65EDA1 (.node 0x2E5D62EDA1 (.leaf 0x118D7) (.leaf 0x118D4)) (.node 0x2E5D67F5A1 (.leaf 0x118CB) (.leaf 0x118C6))))
def nameTree_424 : NameTree := .node 0x2E46904FF2 (.node 0x2E469047F2 (.node 0x2E468F4DF2 (.node 0x2E468F4BF2 (.leaf 0x1334B) (.node 0x2E468F4CF2 (.leaf 0x1334D) (.leaf 0x1334E))) (.node 0x2E468F4FF2 (.node 0x2E468F4EF2 (.leaf 0x1334F) (.leaf 0x13350)) (.node 0x2E468F50F2 (.leaf 0x13351) (.leaf 0x13352)))) (.node 0x2E46904BF2 (.node 0x2E469049F2 (.node 0x2E469048F2 (.leaf 0x13354) (.leaf 0x13355)) (.node 0x2E46904AF2 (.leaf 0x13356) (.leaf 0x13358))) (.node 0x2E46904DF2 (.node 0x2E46904CF2 (.leaf 0x13359) (.leaf 0x1335A)) (.node 0x2E46904EF2 (.leaf 0x1335B) (.leaf 0x1335C))))) (nameTree_423)
def nameTree_425 : NameTree := .node 0x2E7BC3FAF0 (.node 0x2E7BC2FAF0 (.node 0x2E7BC2F8F0 (.node 0x2E758A834B (.leaf 0x27B3) (.leaf 0x1F6B0)) (.node 0x2E7BC2F9F0 (.leaf 0x280F) (.leaf 0x2817))) (.node 0x2E7BC2FCF0 (.node 0x2E7BC2FBF0 (.leaf 0x2827) (.leaf 0x2847)) (.node 0x2E7BC3F9F0 (.leaf 0x2887) (.leaf 0x281B)))) (.node 0x2E7BC4FBF0 (.node 0x2E7BC3FCF0 (.node 0x2E7BC3FBF0 (.leaf 0x282B) (.leaf 0x284B)) (.node 0x2E7BC4FAF0 (.leaf 0x288B) (.leaf 0x2833))) (.node 0x2E7BC5FBF0 (.node 0x2E7BC4FCF0 (.leaf 0x2853) (.leaf 0x2893)) (.node 0x2E7BC5FCF0 (.leaf 0x2863) (.leaf 0x28A3))))
def nameTree_426 : NameTree := .node 0x2E75855687 (.node 0x2E5D7801A1 (.node 0x2E5D7401A1 (.node 0x2E5D6F01A1 (.leaf 0x118CC) (.node 0x2E5D73EFA1 (.leaf 0x118D8) (.leaf 0x118CF))) (.node 0x2E5D77EDA1 (.node 0x2E5D75F5A1 (.leaf 0x118C7) (.leaf 0x118C2)) (.node 0x2E5D77FBA1 (.leaf 0x118C4) (.leaf 0x118C5)))) (.node 0x2E74EF372D (.node 0x2E67AA2285 (.node 0x2E668E0C28 (.leaf 0x118C3) (.leaf 0x1D752)) (.node 0x2E68CD28EC (.leaf 0x11A26) (.leaf 0xFD6C))) (.node 0x2E74FD372D (.node 0x2E74F33B2D (.leaf 0x123B) (.leaf 0x123C)) (.node 0x2E7505372D (.leaf 0x2D84) (.leaf 0x123F))))) (nameTree_425)
def nameTree_427 : NameTree := .node 0x2E7DC5FCF0 (.node 0x2E7CC4FCF0 (.node 0x2E7CC3FBF0 (.node 0x2E7CC3F9F0 (.leaf 0x28C3) (.node 0x2E7CC3FAF0 (.leaf 0x281D) (.leaf 0x282D))) (.node 0x2E7CC4FAF0 (.node 0x2E7CC3FCF0 (.leaf 0x284D) (.leaf 0x288D)) (.node 0x2E7CC4FBF0 (.leaf 0x2835) (.leaf 0x2855)))) (.node 0x2E7DC4FAF0 (.node 0x2E7CC5FCF0 (.node 0x2E7CC5FBF0 (.leaf 0x2895) (.leaf 0x2865)) (.node 0x2E7CC6FCF0 (.leaf 0x28A5) (.leaf 0x28C5))) (.node 0x2E7DC4FCF0 (.node 0x2E7DC4FBF0 (.leaf 0x2839) (.leaf 0x2859)) (.node 0x2E7DC5FBF0 (.leaf 0x2899) (.leaf 0x2869))))) (.node 0x2E7FEF372D (.node 0x2E7EC5FBF0 (.node 0x2E7DC6FCF0 (.leaf 0x28A9) (.node 0x2E7DFBBB53 (.leaf 0x28C9) (.leaf 0x1F8))) (.node 0x2E7EC6FCF0 (.node 0x2E7EC5FCF0 (.leaf 0x2871) (.leaf 0x28B1)) (.node 0x2E7FC6FCF0 (.leaf 0x28D1) (.leaf 0x28E1)))) (.node 0x2E86EF372D (.node 0x2E83A1BA4C (.node 0x2E7FF33B2D (.leaf 0x2DA3) (.leaf 0x2DA4)) (.node 0x2E854A2E96 (.leaf 0x215D) (.leaf 0x1DA4B))) (.node 0x2E8705372D (.node 0x2E86F33B2D (.leaf 0x1223) (.leaf 0x1224)) (.node 0x2E8748136F (.leaf 0x1227) (.leaf 0x249A)))))
def nameTree_428 : NameTree := .node 0x2EFFF931A2 (.node 0x2EEB4FA746 (.node 0x2ED03A6C54 (.node 0x2ECFB4B6D5 (.leaf 0xFCFC) (.leaf 0x1B2A)) (.node 0x2EEAF1B061 (.leaf 0x1F6) (.leaf 0x56C))) (.node 0x2EFA725852 (.node 0x2EF926DB24 (.leaf 0x1D134) (.leaf 0x2A22)) (.node 0x2EFAD17B12 (.leaf 0x2953) (.leaf 0xA8F4)))) (.node 0x2F142FA46A (.node 0x2F0448D6A1 (.node 0x2F000E62E2 (.leaf 0x4AF) (.leaf 0x1F919)) (.node 0x2F0795B874 (.leaf 0x3321) (.leaf 0x32A0))) (.node 0x2F153E0B05 (.node 0x2F1529F505 (.leaf 0x1D0CF) (.leaf 0x1F12D)) (.node 0x2F179F20F6 (.leaf 0x1F12E) (.leaf 0x33FD))))
def nameTree_429 : NameTree := .node 0x2ECC8152DA (.node 0x2EA609C245 (.node 0x2E9B8CBB53 (.node 0x2E91664CA1 (.leaf 0x1D6A4) (.node 0x2E95F103E8 (.leaf 0x1D6A5) (.leaf 0x23AE))) (.node 0x2EA1B7D6BD (.node 0x2E9F8CB9A0 (.leaf 0xD2) (.leaf 0x14E)) (.node 0x2EA2D6C3F3 (.leaf 0x10A43) (.leaf 0xFDA5)))) (.node 0x2EAB12CC45 (.node 0x2EAA04D545 (.node 0x2EA9B0B49F (.leaf 0x2170) (.leaf 0x2958)) (.node 0x2EAB00CB45 (.leaf 0x2175) (.leaf 0x2179))) (.node 0x2EBB0B4246 (.node 0x2EACE1D54B (.leaf 0x2171) (.leaf 0x1F57F)) (.node 0x2ECC809A0F (.leaf 0x1F86B) (.leaf 0x3279))))) (nameTree_428)
def nameTree_430 : NameTree := .node 0x2F468E4CF2 (.node 0x2F468E48F2 (.node 0x2F468D50F2 (.node 0x2F468D4FF2 (.leaf 0x13372) (.leaf 0x13375)) (.node 0x2F468E47F2 (.leaf 0x13376) (.leaf 0x13377))) (.node 0x2F468E4AF2 (.node 0x2F468E49F2 (.leaf 0x13378) (.leaf 0x1337C)) (.node 0x2F468E4BF2 (.leaf 0x1337F) (.leaf 0x13380)))) (.node 0x2F468E50F2 (.node 0x2F468E4EF2 (.node 0x2F468E4DF2 (.leaf 0x13381) (.leaf 0x13382)) (.node 0x2F468E4FF2 (.leaf 0x13383) (.leaf 0x13384))) (.node 0x2F468F48F2 (.node 0x2F468F47F2 (.leaf 0x13385) (.leaf 0x13386)) (.node 0x2F468F49F2 (.leaf 0x13393) (.leaf 0x13394))))
def nameTree_431 : NameTree := .node 0x2F468D4EF2 (.node 0x2F40F067B7 (.node 0x2F26877D08 (.node 0x2F1ECFDFA7 (.leaf 0x302C) (.node 0x2F248FFE91 (.leaf 0x319C) (.leaf 0xFE8F))) (.node 0x2F3C4813E2 (.node 0x2F34ED6D5E (.leaf 0x2287) (.leaf 0x2C24)) (.node 0x2F3D66E3D7 (.leaf 0x1EE8E) (.leaf 0x406)))) (.node 0x2F468D4AF2 (.node 0x2F468D48F2 (.node 0x2F4604832F (.leaf 0x1D8AA) (.leaf 0x1CEE)) (.node 0x2F468D49F2 (.leaf 0x13362) (.leaf 0x1336C))) (.node 0x2F468D4CF2 (.node 0x2F468D4BF2 (.leaf 0x1336E) (.leaf 0x1336F)) (.node 0x2F468D4DF2 (.leaf 0x13370) (.leaf 0x13371))))) (nameTree_430)
def nameTree_432 : NameTree := .node 0x2F57B0449B (.node 0x2F4CF2BB53 (.node 0x2F469147F2 (.node 0x2F469050F2 (.leaf 0x133AB) (.leaf 0x133AC)) (.node 0x2F4A68652F (.leaf 0x133AD) (.leaf 0x122BD))) (.node 0x2F50F2B9A0 (.node 0x2F4DB6F14B (.leaf 0xD9) (.leaf 0x8B2)) (.node 0x2F51C88165 (.leaf 0x16C) (.leaf 0x1D10)))) (.node 0x2F648B306C (.node 0x2F648B266C (.node 0x2F648B226C (.leaf 0x1D947) (.leaf 0x10500)) (.node 0x2F648B2A6C (.leaf 0x10508) (.leaf 0x1050D))) (.node 0x2F648B3A6C (.node 0x2F648B366C (.leaf 0x10516) (.leaf 0x1051F)) (.node 0x2F6774D886 (.leaf 0x10522) (.leaf 0x297A))))
def nameTree_433 : NameTree := .node 0x2F46904FF2 (.node 0x2F469047F2 (.node 0x2F468F4DF2 (.node 0x2F468F4BF2 (.leaf 0x13395) (.node 0x2F468F4CF2 (.leaf 0x13397) (.leaf 0x13398))) (.node 0x2F468F4FF2 (.node 0x2F468F4EF2 (.leaf 0x13399) (.leaf 0x1339A)) (.node 0x2F468F50F2 (.leaf 0x1339B) (.leaf 0x1339D)))) (.node 0x2F46904BF2 (.node 0x2F469049F2 (.node 0x2F469048F2 (.leaf 0x1339F) (.leaf 0x133A1)) (.node 0x2F46904AF2 (.leaf 0x133A3) (.leaf 0x133A4))) (.node 0x2F46904DF2 (.node 0x2F46904CF2 (.leaf 0x133A6) (.leaf 0x133A7)) (.node 0x2F46904EF2 (.leaf 0x133A8) (.leaf 0x133A9))))) (nameTree_432)
def nameTree_434 : NameTree := .node 0x2F78117639 (.node 0x2F7671207F (.node 0x2F74EF372D (.node 0x2F6A4ED60F (.leaf 0x239) (.node 0x2F6D4AC035 (.leaf 0x1D982) (.leaf 0x1F5A0))) (.node 0x2F74FD372D (.node 0x2F74F33B2D (.leaf 0x1323) (.leaf 0x1324)) (.node 0x2F7505372D (.leaf 0x2D8F) (.leaf 0x1327)))) (.node 0x2F780B7639 (.node 0x2F780A7E39 (.node 0x2F780A7639 (.leaf 0x19EB) (.leaf 0x11482)) (.node 0x2F780A8A39 (.leaf 0x1148C) (.leaf 0x1148E))) (.node 0x2F780D7639 (.node 0x2F780C7639 (.leaf 0x114A5) (.leaf 0x11494)) (.node 0x2F78107639 (.leaf 0x114A0) (.leaf 0x11491))))) (.node 0x2F78197639 (.node 0x2F78147639 (.node 0x2F78127E39 (.leaf 0x114AF) (.node 0x2F78137639 (.leaf 0x11484) (.leaf 0x11496))) (.node 0x2F78167639 (.node 0x2F78157639 (.leaf 0x1148F) (.leaf 0x114AA)) (.node 0x2F78177639 (.leaf 0x114A7) (.leaf 0x114A2)))) (.node 0x2F781E8A39 (.node 0x2F781C7639 (.node 0x2F781B7639 (.leaf 0x114A3) (.leaf 0x114A9)) (.node 0x2F781D7639 (.leaf 0x114AE) (.leaf 0x1149E))) (.node 0x2F78227639 (.node 0x2F781F7639 (.leaf 0x11486) (.leaf 0x114AB)) (.node 0x2F7CC3F9F0 (.leaf 0x114A8) (.leaf 0x281E)))))
def nameTree_435 : NameTree := .node 0x2F80F63B2D (.node 0x2F7FC6FCF0 (.node 0x2F7EC5FCF0 (.node 0x2F7EC5FBF0 (.leaf 0x28CA) (.leaf 0x2872)) (.node 0x2F7EC6FCF0 (.leaf 0x28B2) (.leaf 0x28D2))) (.node 0x2F7FF33B2D (.node 0x2F7FEF372D (.leaf 0x28E2) (.leaf 0x133B)) (.node 0x2F8005372D (.leaf 0x133C) (.leaf 0x133F)))) (.node 0x2F86EF372D (.node 0x2F80F6452D (.node 0x2F80F63F2D (.leaf 0xAB05) (.leaf 0xAB02)) (.node 0x2F80F64B2D (.leaf 0xAB06) (.leaf 0xAB01))) (.node 0x2F86FD372D (.node 0x2F86F33B2D (.leaf 0x1343) (.leaf 0x1344)) (.node 0x2F8814BB53 (.leaf 0x1347) (.leaf 0x1E80))))
def nameTree_436 : NameTree := .node 0x2F7DC6FCF0 (.node 0x2F7CC5FCF0 (.node 0x2F7CC4FAF0 (.node 0x2F7CC3FBF0 (.leaf 0x282E) (.node 0x2F7CC3FCF0 (.leaf 0x284E) (.leaf 0x288E))) (.node 0x2F7CC4FCF0 (.node 0x2F7CC4FBF0 (.leaf 0x2836) (.leaf 0x2856)) (.node 0x2F7CC5FBF0 (.leaf 0x2896) (.leaf 0x2866)))) (.node 0x2F7DC4FBF0 (.node 0x2F7DA8FF0F (.node 0x2F7CC6FCF0 (.leaf 0x28A6) (.leaf 0x28C6)) (.node 0x2F7DC4FAF0 (.leaf 0x1F3A8) (.leaf 0x283A))) (.node 0x2F7DC5FBF0 (.node 0x2F7DC4FCF0 (.leaf 0x285A) (.leaf 0x289A)) (.node 0x2F7DC5FCF0 (.leaf 0x286A) (.leaf 0x28AA))))) (nameTree_435)
def nameTree_437 : NameTree := .node 0x2FB69E05D9 (.node 0x2FB1661450 (.node 0x2FAED0F7FC (.node 0x2FAD225BF4 (.leaf 0x10E69) (.leaf 0x1F70F)) (.node 0x2FB09805D9 (.leaf 0x1EC5) (.leaf 0x16F12))) (.node 0x2FB3251123 (.node 0x2FB19BD54A (.leaf 0x101D5) (.leaf 0xAB3A)) (.node 0x2FB69D05D9 (.leaf 0x1E5E) (.leaf 0x16F39)))) (.node 0x2FC97BC7DD (.node 0x2FB9CB6E6D (.node 0x2FB87A52E2 (.leaf 0x16F0C) (.leaf 0x2541)) (.node 0x2FC336BB53 (.leaf 0x1F5D3) (.leaf 0x1EF2))) (.node 0x2FD1300B01 (.node 0x2FCFF02823 (.leaf 0x1F827) (.leaf 0xFEAE)) (.node 0x2FD37C2FD1 (.leaf 0x324D) (.leaf 0x20B5))))
def nameTree_438 : NameTree := .node 0x2FA81A50DB (.node 0x2F94404E25 (.node 0x2F9102F553 (.node 0x2F8D7EACA5 (.leaf 0x1F39E) (.node 0x2F8F84C51A (.leaf 0x2E19) (.leaf 0x16B51))) (.node 0x2F94404625 (.node 0x2F937FD81A (.leaf 0x22C7) (.leaf 0x16B56)) (.node 0x2F94404A25 (.leaf 0x11200) (.leaf 0x11204)))) (.node 0x2F964141FC (.node 0x2F94405A25 (.node 0x2F94405425 (.leaf 0x11202) (.leaf 0x11206)) (.node 0x2F948DCF1A (.leaf 0x11203) (.leaf 0x16B52))) (.node 0x2F9B995EA6 (.node 0x2F98BCF2AB (.leaf 0x13C) (.leaf 0x1EF7)) (.node 0x2FA3251399 (.leaf 0xA8F3) (.leaf 0x11695))))) (nameTree_437)
def nameTree_439 : NameTree := .node 0x303F480DE2 (.node 0x303DC7FDC6 (.node 0x303CD3FFC6 (.node 0x3039995939 (.leaf 0x27A) (.leaf 0x1DA41)) (.node 0x303DC6F2C6 (.leaf 0xA4A5) (.leaf 0xA4C3))) (.node 0x303DD801C6 (.node 0x303DD7FDC6 (.leaf 0xA4BE) (.leaf 0xA494)) (.node 0x303F4411E2 (.leaf 0xA4A3) (.leaf 0x1EE98)))) (.node 0x3044C906C6 (.node 0x3041CE01C6 (.node 0x3041C3FDC6 (.leaf 0x1EE96) (.leaf 0xA497)) (.node 0x3042CBFCC6 (.leaf 0xA4B6) (.leaf 0xA4AD))) (.node 0x30468D48F2 (.node 0x3045C801C6 (.leaf 0xA4B5) (.leaf 0xA492)) (.node 0x30468D49F2 (.leaf 0x133AF) (.leaf 0x133B0))))
def nameTree_440 : NameTree := .node 0x3033C09538 (.node 0x300B63824B (.node 0x2FEAAD782C (.node 0x2FE3751C1D (.leaf 0xA2) (.node 0x2FE9267EB6 (.leaf 0x1135F) (.leaf 0x1D94D))) (.node 0x30004CCD44 (.node 0x2FFC62AE62 (.leaf 0x1F78C) (.leaf 0x7A9)) (.node 0x3007D1DB5D (.leaf 0x2100) (.leaf 0xFCA1)))) (.node 0x30238A96D7 (.node 0x3012A37CC6 (.node 0x30106B762A (.leaf 0xA989) (.leaf 0x1F984)) (.node 0x301433ECD8 (.leaf 0x1DA25) (.leaf 0xFE81))) (.node 0x3024780003 (.node 0x30239AAFBB (.leaf 0xAA43) (.leaf 0x1B6)) (.node 0x30338E57D5 (.leaf 0x1F825) (.leaf 0x270))))) (nameTree_439)
def nameTree_441 : NameTree := .node 0x30468E4FF2 (.node 0x30468E47F2 (.node 0x30468D4DF2 (.node 0x30468D4BF2 (.leaf 0x133B1) (.node 0x30468D4CF2 (.leaf 0x133B3) (.leaf 0x133B4))) (.node 0x30468D4FF2 (.node 0x30468D4EF2 (.leaf 0x133B5) (.leaf 0x133B6)) (.node 0x30468D50F2 (.leaf 0x133B7) (.leaf 0x133B8)))) (.node 0x30468E4BF2 (.node 0x30468E49F2 (.node 0x30468E48F2 (.leaf 0x133BA) (.leaf 0x133BC)) (.node 0x30468E4AF2 (.leaf 0x133BD) (.leaf 0x133BE))) (.node 0x30468E4DF2 (.node 0x30468E4CF2 (.leaf 0x133BF) (.leaf 0x133C1)) (.node 0x30468E4EF2 (.leaf 0x133C2) (.leaf 0x133C3))))) (.node 0x30468F4CF2 (.node 0x30468F48F2 (.node 0x30468E50F2 (.leaf 0x133C5) (.node 0x30468F47F2 (.leaf 0x133C7) (.leaf 0x133C8))) (.node 0x30468F4AF2 (.node 0x30468F49F2 (.leaf 0x133C9) (.leaf 0x133CA)) (.node 0x30468F4BF2 (.leaf 0x133CB) (.leaf 0x133CC)))) (.node 0x304AD401C6 (.node 0x3046D7FFC6 (.node 0x3046C7F2C6 (.leaf 0x133CE) (.leaf 0xA4BB)) (.node 0x3047CDFDC6 (.leaf 0xA49A) (.leaf 0xA49C))) (.node 0x304BCE01C6 (.node 0x304AD801C6 (.leaf 0xA49E) (.leaf 0xA4AC)) (.node 0x304DC706C6 (.leaf 0xA490) (.leaf 0xA4B0)))))
def nameTree_442 : NameTree := .node 0x307E9E407D (.node 0x307DC5FBF0 (.node 0x307DC4FBF0 (.node 0x307DC4FAF0 (.leaf 0xA8D6) (.leaf 0x283C)) (.node 0x307DC4FCF0 (.leaf 0x285C) (.leaf 0x289C))) (.node 0x307DC6FCF0 (.node 0x307DC5FCF0 (.leaf 0x286C) (.leaf 0x28AC)) (.node 0x307DF505B3 (.leaf 0x28CC) (.leaf 0xA8D2)))) (.node 0x307FC6FCF0 (.node 0x307EC5FCF0 (.node 0x307EC5FBF0 (.leaf 0x2E3F) (.leaf 0x2874)) (.node 0x307EC6FCF0 (.leaf 0x28B4) (.leaf 0x28D4))) (.node 0x3086838126 (.node 0x30833D2485 (.leaf 0x28E4) (.leaf 0x2F10)) (.node 0x3088838126 (.leaf 0x16B25) (.leaf 0x16B29))))
def nameTree_443 : NameTree := .node 0x307CE70EB3 (.node 0x3054D3FDC6 (.node 0x3050D3FFC6 (.node 0x304EC001C6 (.leaf 0xA495) (.node 0x3050C3FDC6 (.leaf 0xA4A0) (.leaf 0xA4B1))) (.node 0x3053C801C6 (.node 0x30520250F3 (.leaf 0xA4AF) (.leaf 0xFC6C)) (.node 0x3054CE01C6 (.leaf 0xA4AE) (.leaf 0xA4AB)))) (.node 0x306F28D328 (.node 0x305E05BE8A (.node 0x3054D3FFC6 (.leaf 0xA4A2) (.leaf 0xA4C1)) (.node 0x3064F69D91 (.leaf 0xAA70) (.leaf 0xFF08))) (.node 0x3078EBFBB3 (.node 0x3074C39178 (.leaf 0x1F926) (.leaf 0x10197)) (.node 0x307A277738 (.leaf 0xA8D1) (.leaf 0x2691))))) (nameTree_442)
def nameTree_444 : NameTree := .node 0x30CA93B146 (.node 0x30BD3A98E5 (.node 0x30B973480D (.node 0x30B4DD6886 (.leaf 0x1DA30) (.leaf 0x2B7F)) (.node 0x30BCD0AF5B (.leaf 0x1D9F5) (.leaf 0x1F39D))) (.node 0x30C35F6A13 (.node 0x30C06D4CB0 (.leaf 0x1244B) (.leaf 0x1EB0)) (.node 0x30C40EA2DB (.leaf 0x1D095) (.leaf 0x2933)))) (.node 0x30D54EF555 (.node 0x30D325F2A3 (.node 0x30CFC74199 (.leaf 0xFEB6) (.leaf 0x1D14F)) (.node 0x30D4065A7D (.leaf 0x1F909) (.leaf 0x1D861))) (.node 0x30DD3026E3 (.node 0x30DBBE153B (.leaf 0x11C70) (.leaf 0x12483)) (.node 0x30E24F7D59 (.leaf 0x250E) (.leaf 0x1F5F5))))
def nameTree_445 : NameTree := .node 0x30B38FBAD7 (.node 0x309C01B26E (.node 0x30970FB26E (.node 0x308F963898 (.leaf 0x1238A) (.node 0x30918045AE (.leaf 0x1D9FE) (.leaf 0xA60E))) (.node 0x3099FA475F (.node 0x30989D3AE3 (.leaf 0x19A6) (.leaf 0x3266)) (.node 0x309A00B26E (.leaf 0x1E003) (.leaf 0x1984)))) (.node 0x30A40FB26E (.node 0x30A001B26E (.node 0x309F0EB26E (.leaf 0x1995) (.leaf 0x19AA)) (.node 0x30A00CB26E (.leaf 0x198F) (.leaf 0x1988))) (.node 0x30A91A5E87 (.node 0x30A4BCE0CC (.leaf 0x19A7) (.leaf 0x2B9B)) (.node 0x30AA7EF006 (.leaf 0x707) (.leaf 0x2C04))))) (nameTree_444)
def nameTree_446 : NameTree := .node 0x31468D48F2 (.node 0x3136D72813 (.node 0x313003F034 (.node 0x312F18D507 (.leaf 0x2219) (.leaf 0xFDB9)) (.node 0x3133FF8E68 (.leaf 0x114BF) (.leaf 0x1D1CA))) (.node 0x313B67A8E8 (.node 0x31373EC4A6 (.leaf 0x1F62B) (.leaf 0xA9C6)) (.node 0x313BD8C939 (.leaf 0x2292) (.leaf 0xA67B)))) (.node 0x31468D4CF2 (.node 0x31468D4AF2 (.node 0x31468D49F2 (.leaf 0x133CF) (.leaf 0x133D0)) (.node 0x31468D4BF2 (.leaf 0x133D1) (.leaf 0x133D2))) (.node 0x31468D4EF2 (.node 0x31468D4DF2 (.leaf 0x133D5) (.leaf 0x133D6)) (.node 0x31468D4FF2 (.leaf 0x133D8) (.leaf 0x133D9))))
def nameTree_447 : NameTree := .node 0x31263F30B3 (.node 0x31084D6AAC (.node 0x3102A4BA74 (.node 0x30F7F748E4 (.leaf 0x1CC4) (.node 0x30FBD77BB3 (.leaf 0x328) (.leaf 0x1F904))) (.node 0x31048C1AE2 (.node 0x3102DCC2FA (.leaf 0x3247) (.leaf 0xF69)) (.node 0x3105301828 (.leaf 0x210) (.leaf 0x781)))) (.node 0x3110980291 (.node 0x310B511B92 (.node 0x3109471592 (.leaf 0x1A87) (.leaf 0x3343)) (.node 0x310C272F0D (.leaf 0x331F) (.leaf 0x1D9A1))) (.node 0x3121CAC5AD (.node 0x311DD249D4 (.leaf 0x2ADE) (.leaf 0x26F8)) (.node 0x312536F739 (.leaf 0x11120) (.leaf 0x16B7D))))) (nameTree_446)
def nameTree_448 : NameTree := .node 0x31774566AC (.node 0x31574A8F90 (.node 0x3150CDB826 (.node 0x314EBEB375 (.leaf 0x58D) (.node 0x314EF79675 (.leaf 0x1D6E3) (.leaf 0x2E48))) (.node 0x31537E8306 (.node 0x3151AE17A6 (.leaf 0x16B76) (.leaf 0x324A)) (.node 0x31574A8790 (.leaf 0x12242) (.leaf 0x167C)))) (.node 0x316AAFB4C8 (.node 0x315D73D73E (.node 0x31574A9590 (.leaf 0x1678) (.leaf 0x167A)) (.node 0x316461FC26 (.leaf 0x1DA4A) (.leaf 0x1D101))) (.node 0x31712519F5 (.node 0x316BAC1A4D (.leaf 0x1D036) (.leaf 0x1694A)) (.node 0x317245EB82 (.leaf 0x2493) (.leaf 0x315))))) (.node 0x317F57BCA2 (.node 0x317EC5FBF0 (.node 0x3179EAF677 (.leaf 0xDE6) (.node 0x317A96DF71 (.leaf 0x2C3C) (.leaf 0xBD))) (.node 0x317EC6FCF0 (.node 0x317EC5FCF0 (.leaf 0x2878) (.leaf 0x28B8)) (.node 0x317F57B7A2 (.leaf 0x28D8) (.leaf 0x2102)))) (.node 0x317F57C6A2 (.node 0x317F57C4A2 (.node 0x317F57C2A2 (.leaf 0x210D) (.leaf 0x2115)) (.node 0x317F57C5A2 (.leaf 0x2119) (.leaf 0x211A))) (.node 0x317FC6FCF0 (.node 0x317F57CEA2 (.leaf 0x211D) (.leaf 0x2124)) (.node 0x3183272606 (.leaf 0x28E8) (.leaf 0x11641)))))
def nameTree_449 : NameTree := .node 0x31E27E50AB (.node 0x31CB378CD3 (.node 0x31CA2B6A3F (.node 0x31C7954697 (.leaf 0x1F661) (.leaf 0x1F327)) (.node 0x31CB0AE0B8 (.leaf 0x124CA) (.leaf 0xFB28))) (.node 0x31D4595136 (.node 0x31D24FAC07 (.leaf 0x1F0C) (.leaf 0x263C)) (.node 0x31DAA3914E (.leaf 0x1F329) (.leaf 0x1DA06)))) (.node 0x31F72C5201 (.node 0x31EBFEAAD6 (.node 0x31E39334FE (.leaf 0x1F390) (.leaf 0x1F365)) (.node 0x31F18CDD27 (.leaf 0x1F107) (.leaf 0x8EA))) (.node 0x32006D03FA (.node 0x31F896BF74 (.leaf 0x111F4) (.leaf 0x32A7)) (.node 0x3200E00F73 (.leaf 0x1D932) (.leaf 0x25F4))))
def nameTree_450 : NameTree := .node 0x31C46FE87D (.node 0x319F5D7750 (.node 0x3198DD5A22 (.node 0x3193C21FFC (.leaf 0x12099) (.node 0x3198A4D465 (.leaf 0x1F886) (.leaf 0x1F425))) (.node 0x319D551B32 (.node 0x319933E2E4 (.leaf 0x1F6E9) (.leaf 0xFC41)) (.node 0x319D65A565 (.leaf 0x12401) (.leaf 0x1D038)))) (.node 0x31BBAE5BDA (.node 0x31AA8468CA (.node 0x31A29EE4C5 (.leaf 0x270A) (.leaf 0x21E7)) (.node 0x31B878079D (.leaf 0x1F510) (.leaf 0xFDAD))) (.node 0x31C1F1F957 (.node 0x31C061A270 (.leaf 0x1D74F) (.leaf 0x291A)) (.node 0x31C20AD0B8 (.leaf 0x1172B) (.leaf 0xFB24))))) (nameTree_449)
def nameTree_451 : NameTree := .node 0x32492CDBFA (.node 0x32468D4DF2 (.node 0x32468D4BF2 (.node 0x32468D4AF2 (.leaf 0x133DD) (.leaf 0x133DE)) (.node 0x32468D4CF2 (.leaf 0x133DF) (.leaf 0x133E0))) (.node 0x32468D4FF2 (.node 0x32468D4EF2 (.leaf 0x133E1) (.leaf 0x133E2)) (.node 0x3248F37A98 (.leaf 0x133E3) (.leaf 0x1E95)))) (.node 0x32595A0851 (.node 0x324D1FC16E (.node 0x324A9A8340 (.leaf 0x1F0C9) (.leaf 0x1F31D)) (.node 0x32589CF293 (.leaf 0x23A2) (.leaf 0x1F948))) (.node 0x326BBE5FBD (.node 0x32625BC0FC (.leaf 0x16858) (.leaf 0x109E)) (.node 0x326FEABAF0 (.leaf 0x109C6) (.leaf 0x27F9))))
def nameTree_452 : NameTree := .node 0x32468D49F2 (.node 0x323D3FF231 (.node 0x3224B62EB4 (.node 0x320D5D289D (.leaf 0x1D55) (.node 0x3223E8D65F (.leaf 0x2947) (.leaf 0x1D0D6))) (.node 0x323681CA5B (.node 0x322924DDA0 (.leaf 0xF7E) (.leaf 0x11730)) (.node 0x323CA0EBED (.leaf 0x301D) (.leaf 0x2364)))) (.node 0x3245219A4E (.node 0x3245159A4E (.node 0x323D40EBD9 (.leaf 0x1F02) (.leaf 0x1F386)) (.node 0x32451DA04E (.leaf 0x10385) (.leaf 0x10394))) (.node 0x324527A04E (.node 0x3245249A4E (.leaf 0x1039A) (.leaf 0x10386)) (.node 0x32468D48F2 (.leaf 0x10391) (.leaf 0x133DB))))) (nameTree_451)
def nameTree_453 : NameTree := .node 0x32C2185A9F (.node 0x32BDDC142A (.node 0x32B67415D6 (.node 0x32B2E15529 (.leaf 0xF8E) (.leaf 0xFBDC)) (.node 0x32BC6C7D9D (.leaf 0x101D9) (.leaf 0xA9AC))) (.node 0x32C214679F (.node 0x32C12ECC11 (.leaf 0x2660) (.leaf 0x156)) (.node 0x32C218549F (.leaf 0x10434) (.leaf 0x10441)))) (.node 0x32C218619F (.node 0x32C2185C9F (.node 0x32C2185B9F (.leaf 0x1044A) (.leaf 0x1044B)) (.node 0x32C218609F (.leaf 0x1044C) (.leaf 0x10449))) (.node 0x32C222579F (.node 0x32C218659F (.leaf 0x10445) (.leaf 0x1044F)) (.node 0x32C222659F (.leaf 0x1044E) (.leaf 0x10435))))
def nameTree_454 : NameTree := .node 0x32B27E4624 (.node 0x328510E9FC (.node 0x327AA76A5C (.node 0x32729A905C (.leaf 0x1F5F0) (.node 0x32746DCC9B (.leaf 0x12361) (.leaf 0x1F5BF))) (.node 0x3282B137B8 (.node 0x327FC6FCF0 (.leaf 0x12369) (.leaf 0x28F0)) (.node 0x3282F4E9A8 (.leaf 0xFC39) (.leaf 0x276D)))) (.node 0x329B1161FF (.node 0x3293EFB62F (.node 0x3288966122 (.leaf 0x2215) (.leaf 0x1F010)) (.node 0x3298E57D1B (.leaf 0x1D1BB) (.leaf 0x1F7AF))) (.node 0x32A291B3A5 (.node 0x329BB273D9 (.leaf 0xFCDC) (.leaf 0x1F941)) (.node 0x32A3A3B3A5 (.leaf 0x4BD) (.leaf 0x4E1))))) (nameTree_453)
def nameTree_455 : NameTree := .node 0x330B234701 (.node 0x32FE998B82 (.node 0x32F94373A3 (.node 0x32F9431CA3 (.leaf 0x1F805) (.leaf 0x33B9)) (.node 0x32FE7B881A (.leaf 0x33BF) (.leaf 0xC83))) (.node 0x33059B3E01 (.node 0x33029FB974 (.leaf 0x1D6B0) (.leaf 0x328A)) (.node 0x3305F2E2C6 (.leaf 0x262E) (.leaf 0x12243)))) (.node 0x3318AD3B1F (.node 0x33127833BE (.node 0x330C00BC31 (.leaf 0x124D4) (.leaf 0x108F1)) (.node 0x3313776D91 (.leaf 0x1D6DC) (.leaf 0x1F3BE))) (.node 0x331A540002 (.node 0x3319AD3B1F (.leaf 0x9AD) (.leaf 0x99B)) (.node 0x331AA93B1F (.leaf 0x1D89B) (.leaf 0x9A1))))
def nameTree_456 : NameTree := .node 0x32F6DF8717 (.node 0x32D2B92BD0 (.node 0x32C9CA6A7B (.node 0x32C25368E5 (.leaf 0x10436) (.node 0x32C4E9702C (.leaf 0x1171F) (.leaf 0x118B9))) (.node 0x32CAE2732C (.node 0x32CADC702C (.leaf 0x1016C) (.leaf 0x118BA)) (.node 0x32CCC852FE (.leaf 0x118BB) (.leaf 0x1091B)))) (.node 0x32EAF1B461 (.node 0x32DA55E4F5 (.node 0x32D49B4F97 (.leaf 0x2CDA) (.leaf 0x1F328)) (.node 0x32DEF4B5EC (.leaf 0x102F9) (.leaf 0x1125))) (.node 0x32F21DE406 (.node 0x32F104DA7A (.leaf 0x583) (.leaf 0xAE)) (.node 0x32F49CB074 (.leaf 0x2A9F) (.leaf 0x329A))))) (nameTree_455)
def nameTree_457 : NameTree := .node 0x33273CE2A9 (.node 0x332734E2A9 (.node 0x33272CE2A9 (.node 0x33272AF0A9 (.leaf 0x568) (.leaf 0x570)) (.node 0x332731E9A9 (.leaf 0x571) (.leaf 0x585))) (.node 0x332738F0A9 (.node 0x332736F0A9 (.leaf 0x57C) (.leaf 0x569)) (.node 0x33273BEAA9 (.leaf 0x578) (.leaf 0x575)))) (.node 0x332783DAB7 (.node 0x332774D0B7 (.node 0x33276DD4B7 (.leaf 0x566) (.leaf 0x1D0BD)) (.node 0x332779CCB7 (.leaf 0x1D0BF) (.leaf 0x1D0BA))) (.node 0x3328B73B1F (.node 0x3328AD3B1F (.leaf 0x1D0C0) (.leaf 0x9DD)) (.node 0x3329AD3B1F (.leaf 0x9DC) (.leaf 0x9B6))))
def nameTree_458 : NameTree := .node 0x332727F5A9 (.node 0x3324B33B1F (.node 0x3320AD3B1F (.node 0x331CA64970 (.leaf 0x9A7) (.node 0x331DAD3B1F (.leaf 0x1D035) (.leaf 0x998))) (.node 0x332333719C (.node 0x3321AD3B1F (.leaf 0x99D) (.leaf 0x996)) (.node 0x3324AC3B1F (.leaf 0x5C4) (.leaf 0x999)))) (.node 0x332725E2A9 (.node 0x3326AD3B1F (.node 0x3324BE3B1F (.leaf 0x9A3) (.leaf 0x99E)) (.node 0x3326E8D023 (.leaf 0x9AB) (.leaf 0x2B2C))) (.node 0x332726E2A9 (.node 0x332725F0A9 (.leaf 0x56E) (.leaf 0x581)) (.node 0x332727E9A9 (.leaf 0x564) (.leaf 0x567))))) (nameTree_457)
def nameTree_459 : NameTree := .node 0x33468D4FF2 (.node 0x33468D4BF2 (.node 0x33468D49F2 (.node 0x33468D48F2 (.leaf 0x1D6F5) (.leaf 0x133E4)) (.node 0x33468D4AF2 (.leaf 0x133E5) (.leaf 0x133EA))) (.node 0x33468D4DF2 (.node 0x33468D4CF2 (.leaf 0x133ED) (.leaf 0x133EF)) (.node 0x33468D4EF2 (.leaf 0x133F1) (.leaf 0x133F2)))) (.node 0x33468E49F2 (.node 0x33468E47F2 (.node 0x33468D50F2 (.leaf 0x133F3) (.leaf 0x133F4)) (.node 0x33468E48F2 (.leaf 0x133F5) (.leaf 0x133F6))) (.node 0x33468E4BF2 (.node 0x33468E4AF2 (.leaf 0x133F7) (.leaf 0x133F8)) (.node 0x33468E4CF2 (.leaf 0x133F9) (.leaf 0x133FA))))
def nameTree_460 : NameTree := .node 0x33434ABF81 (.node 0x333251B381 (.node 0x332AB93B1F (.node 0x3329DE15E9 (.leaf 0x9B7) (.node 0x332AAD3B1F (.leaf 0x25D3) (.leaf 0x9A5))) (.node 0x332C99176C (.node 0x332B36DAD6 (.leaf 0x99F) (.leaf 0x1F981)) (.node 0x332FBE3B1F (.leaf 0xA9BA) (.leaf 0x9DF)))) (.node 0x333BE63BA9 (.node 0x33345DAB81 (.node 0x3332991C2E (.leaf 0x1D6F8) (.leaf 0xA9B5)) (.node 0x3339BC6A2C (.leaf 0x1D6E8) (.leaf 0x1393))) (.node 0x333F5CB381 (.node 0x333F51B381 (.leaf 0x10195) (.leaf 0x1D6F7)) (.node 0x334151B981 (.leaf 0x1D6F9) (.leaf 0x1D6F2))))) (nameTree_459)
def nameTree_461 : NameTree := .node 0x339E8924A9 (.node 0x339694C0C4 (.node 0x338EC93451 (.node 0x3385F33B2D (.leaf 0x2DD3) (.leaf 0x2DD4)) (.node 0x33909380F5 (.leaf 0x1F79B) (.leaf 0x1F922))) (.node 0x339E891CA9 (.node 0x3397586750 (.leaf 0x4F6) (.leaf 0x270B)) (.node 0x339E8920A9 (.leaf 0xA061) (.leaf 0xA05E)))) (.node 0x339E911CA9 (.node 0x339E8D24A9 (.node 0x339E8D1CA9 (.leaf 0xA05F) (.leaf 0xA06B)) (.node 0x339E9111A9 (.leaf 0xA069) (.leaf 0xA05C))) (.node 0x339E9124A9 (.node 0x339E9120A9 (.leaf 0xA059) (.leaf 0xA056)) (.node 0x339E971CA9 (.leaf 0xA057) (.leaf 0xA068))))
def nameTree_462 : NameTree := .node 0x3385EF372D (.node 0x336E065014 (.node 0x335571E1B1 (.node 0x334D8A2E13 (.leaf 0x13404) (.node 0x334EB488AB (.leaf 0x1F4BF) (.leaf 0x302E))) (.node 0x3365FFE41C (.node 0x3363621E28 (.leaf 0xE06) (.leaf 0x22B6)) (.node 0x336CAB0CD6 (.leaf 0x1F56A) (.leaf 0x19EF)))) (.node 0x3383D7E45F (.node 0x3373F25914 (.node 0x3371B4C967 (.leaf 0x10B8C) (.leaf 0x1F4E7)) (.node 0x338282DD18 (.leaf 0x10B91) (.leaf 0x10880))) (.node 0x3383F33B2D (.node 0x3383EF372D (.leaf 0x22BF) (.leaf 0x128B)) (.node 0x3385E61AD5 (.leaf 0x128C) (.leaf 0x1F019))))) (nameTree_461)
def nameTree_463 : NameTree := .node 0x2F68A1640A (.node 0x2DEA26BB53 (.node 0x2D0251F6D1 (.node 0x2C75053B2D (.node 0x2C5664E129 (nameTree_406) (nameTree_408)) (.node 0x2CB789CF24 (nameTree_410) (nameTree_412))) (.node 0x2D75A27F5C (.node 0x2D468E4EF2 (nameTree_413) (nameTree_415)) (.node 0x2D95AA9C2B (nameTree_417) (nameTree_419)))) (.node 0x2E7BC6FCF0 (.node 0x2E468F4AF2 (.node 0x2E0DD8AA2C (nameTree_420) (nameTree_422)) (.node 0x2E5D69FBA1 (nameTree_424) (nameTree_426))) (.node 0x2F1BE2BD9E (.node 0x2E91664BA1 (nameTree_427) (nameTree_429)) (.node 0x2F468F4AF2 (nameTree_431) (nameTree_433))))) (.node 0x314BF28C5F (.node 0x30468D4AF2 (.node 0x2F8B5B562D (.node 0x2F7CC3FAF0 (nameTree_434) (nameTree_436)) (.node 0x2FD6E5ECD1 (nameTree_438) (nameTree_440))) (.node 0x308A39E025 (.node 0x304DD1F6C6 (nameTree_441) (nameTree_443)) (.node 0x30E9CA0670 (nameTree_445) (nameTree_447)))) (.node 0x32C22A639F (.node 0x32074D122F (.node 0x318487AD5E (nameTree_448) (nameTree_450)) (.node 0x32723095EF (nameTree_452) (nameTree_454))) (.node 0x3329B83B1F (.node 0x331AAD3B1F (nameTree_456) (nameTree_458)) (.node 0x33468E4DF2 (nameTree_460) (nameTree_462)))))
def nameTree_464 : NameTree := .node 0x33AD6D175F (.node 0x339EA11CA9 (.node 0x339E9D1CA9 (.node 0x339E9724A9 (.leaf 0xA065) (.node 0x339E9D1BA9 (.leaf 0xA066) (.leaf 0xA063))) (.node 0x339E9D20A9 (.node 0x339E9D1EA9 (.leaf 0xA06F) (.leaf 0xA071)) (.node 0x339E9D24A9 (.leaf 0xA06C) (.leaf 0xA06D)))) (.node 0x33A58D20A9 (.node 0x339EA124A9 (.node 0x339EA120A9 (.leaf 0xA075) (.leaf 0xA072)) (.node 0x33A58D1CA9 (.leaf 0xA073) (.leaf 0xA01D))) (.node 0x33A9D9AB7B (.node 0x33A58D24A9 (.leaf 0xA01A) (.leaf 0xA01B)) (.node 0x33AC8D508B (.leaf 0x1E4D) (.leaf 0x1FFB))))) (.node 0x33B59A24A9 (.node 0x33B1971CA9 (.node 0x33AE2AE7E0 (.leaf 0x1D11C) (.node 0x33B180F6B4 (.leaf 0x1D94) (.leaf 0x2C17))) (.node 0x33B19A24A9 (.node 0x33B19724A9 (.leaf 0xA024) (.leaf 0xA022)) (.node 0x33B386B9D7 (.leaf 0xA030) (.leaf 0x1DA6B)))) (.node 0x33B796681C (.node 0x33B7965E1C (.node 0x33B77EABD7 (.leaf 0xA036) (.leaf 0x1D9FF)) (.node 0x33B796621C (.leaf 0xBC6) (.leaf 0xBBF))) (.node 0x33B81AAE7D (.node 0x33B7966E1C (.leaf 0xBCA) (.leaf 0xBC1)) (.node 0x33C04CEA8C (.leaf 0xAFB) (.leaf 0xF25)))))
def nameTree_465 : NameTree := .node 0x3409C860F2 (.node 0x34044D6203 (.node 0x3401DB0582 (.node 0x33FFC960F2 (.leaf 0x1119D) (.leaf 0x111A3)) (.node 0x3402C960F2 (.leaf 0x64C) (.leaf 0x11194))) (.node 0x3406C960F2 (.node 0x3405C960F2 (.leaf 0x1A83) (.leaf 0x11199)) (.node 0x3407CD60F2 (.leaf 0x11192) (.leaf 0x111AD)))) (.node 0x340DB1AC4C (.node 0x3409DA60F2 (.node 0x3409CF60F2 (.leaf 0x11195) (.leaf 0x1119F)) (.node 0x340BC960F2 (.leaf 0x1119A) (.leaf 0x111A6))) (.node 0x340ED460F2 (.node 0x340EC960F2 (.leaf 0x2B48) (.leaf 0x111AF)) (.node 0x340FC960F2 (.leaf 0x111B0) (.leaf 0x111A1))))
def nameTree_466 : NameTree := .node 0x33FFC560F2 (.node 0x33F0852A28 (.node 0x33CC7F79AD (.node 0x33C6802E18 (.leaf 0xF24) (.node 0x33C836D356 (.leaf 0x10185) (.leaf 0xFD1B))) (.node 0x33D55C7F01 (.node 0x33D0FE8326 (.leaf 0x1F53B) (.leaf 0xFD63)) (.node 0x33EFA52022 (.leaf 0x699) (.leaf 0x27F2)))) (.node 0x33F8A87A82 (.node 0x33F5FF7203 (.node 0x33F49DB074 (.leaf 0x2A79) (.leaf 0x3294)) (.node 0x33F73FF2A8 (.leaf 0x1F635) (.leaf 0x2EAA))) (.node 0x33FDC960F2 (.node 0x33FC9EB074 (.leaf 0x2730) (.leaf 0x3288)) (.node 0x33FEC960F2 (.leaf 0x111A8) (.leaf 0x11197))))) (nameTree_465)
def nameTree_467 : NameTree := .node 0x34662F5FF2 (.node 0x34649585E1 (.node 0x34577A60CF (.node 0x3456633C11 (.leaf 0x1CD5) (.leaf 0xA6ED)) (.node 0x3458209483 (.leaf 0x2525) (.leaf 0x269C))) (.node 0x346495FA72 (.node 0x346495C2B6 (.leaf 0x316F) (.leaf 0x313D)) (.node 0x346496E394 (.leaf 0x3167) (.leaf 0x3144)))) (.node 0x3469A8B8F9 (.node 0x3468A0D08C (.node 0x34680D3B8B (.leaf 0x521) (.leaf 0x325B)) (.node 0x3468A1BD14 (.leaf 0x2AA) (.leaf 0x2A6))) (.node 0x346C084E8B (.node 0x346A2B861B (.leaf 0x1F6D) (.leaf 0x1F7B)) (.node 0x346D16458B (.leaf 0x32B1) (.leaf 0x325C))))
def nameTree_468 : NameTree := .node 0x345570C70F (.node 0x343564F727 (.node 0x34251286AC (.node 0x3419BA1950 (.leaf 0x1119B) (.node 0x342490FC57 (.leaf 0xE5) (.leaf 0x1D862))) (.node 0x3428BE1C43 (.node 0x3425C3F165 (.leaf 0x257D) (.leaf 0x1CF1)) (.node 0x3433BB143C (.leaf 0x1F49F) (.leaf 0xFCB7)))) (.node 0x344181CB2F (.node 0x3435750227 (.node 0x34356FF627 (.leaf 0xAA44) (.leaf 0xAA42)) (.node 0x343A404726 (.leaf 0xAA4B) (.leaf 0x1F950))) (.node 0x3448F08BA7 (.node 0x3448D4D9D1 (.leaf 0x237B) (.leaf 0x221B)) (.node 0x344D93BF37 (.leaf 0x1F387) (.leaf 0x21B4))))) (nameTree_467)
def nameTree_469 : NameTree := .node 0x34A4A11CA9 (.node 0x34A49D1BA9 (.node 0x34A49720A9 (.node 0x34A4971CA9 (.leaf 0xA36E) (.leaf 0xA36C)) (.node 0x34A49724A9 (.leaf 0xA369) (.leaf 0xA36A))) (.node 0x34A49D1EA9 (.node 0x34A49D1CA9 (.leaf 0xA367) (.leaf 0xA373)) (.node 0x34A49D24A9 (.leaf 0xA375) (.leaf 0xA371)))) (.node 0x34A58D1CA9 (.node 0x34A4A120A9 (.node 0x34A4A11EA9 (.leaf 0xA379) (.leaf 0xA37B)) (.node 0x34A4A124A9 (.leaf 0xA376) (.leaf 0xA377))) (.node 0x34A58D24A9 (.node 0x34A58D20A9 (.leaf 0xA2B5) (.leaf 0xA2B2)) (.node 0x34A9CF887A (.leaf 0xA2B3) (.leaf 0x232D))))
def nameTree_470 : NameTree := .node 0x34A48D24A9 (.node 0x34966A793A (.node 0x347FFF6A2C (.node 0x347E134938 (.leaf 0x1ED0) (.node 0x347E5A8130 (.leaf 0xFC0) (.leaf 0x1D9A5))) (.node 0x3483E9455F (.node 0x34811B6725 (.leaf 0x1D81F) (.leaf 0x1BC24)) (.node 0x348E5C4242 (.leaf 0x1F7A5) (.leaf 0x1D81C)))) (.node 0x34A48920A9 (.node 0x34A44C783C (.node 0x34A14C740C (.leaf 0x1AA1) (.leaf 0x26CB)) (.node 0x34A4891CA9 (.leaf 0x1E91) (.leaf 0xA364))) (.node 0x34A48D1CA9 (.node 0x34A48924A9 (.leaf 0xA361) (.leaf 0xA362)) (.node 0x34A48D20A9 (.leaf 0xA370) (.leaf 0xA36D))))) (nameTree_469)
def nameTree_471 : NameTree := .node 0x34E053B24B (.node 0x34B5E43DDF (.node 0x34B19724A9 (.node 0x34AFDD64CF (.leaf 0x1D02B) (.node 0x34B1971CA9 (.leaf 0x64B) (.leaf 0xA2BC))) (.node 0x34B1CA8277 (.node 0x34B19A24A9 (.leaf 0xA2BA) (.leaf 0xA2C8)) (.node 0x34B59A24A9 (.leaf 0x1427) (.leaf 0xA2CE)))) (.node 0x34C3521806 (.node 0x34BD28853D (.node 0x34B89A1CE5 (.leaf 0x116C9) (.leaf 0xFFE9)) (.node 0x34C3304036 (.leaf 0x1F60E) (.leaf 0x1F8D))) (.node 0x34DA54A54B (.node 0x34D844AAE5 (.leaf 0xFD67) (.leaf 0x2BD1)) (.node 0x34DA8197E8 (.leaf 0x1010B) (.leaf 0xFEF0))))) (.node 0x34F7D6A2E9 (.node 0x34F1EA8AAB (.node 0x34E07F92A7 (.leaf 0x1010A) (.node 0x34EE85EF7E (.leaf 0x301F) (.leaf 0x8ED))) (.node 0x34F7D6A0E9 (.node 0x34F61CF143 (.leaf 0x2043) (.leaf 0x1BC9F)) (.node 0x34F7D6A1E9 (.leaf 0xFE00) (.leaf 0xFE01)))) (.node 0x34F7D6A6E9 (.node 0x34F7D6A4E9 (.node 0x34F7D6A3E9 (.leaf 0xFE02) (.leaf 0xFE03)) (.node 0x34F7D6A5E9 (.leaf 0xFE04) (.leaf 0xFE05))) (.node 0x34F7D6A8E9 (.node 0x34F7D6A7E9 (.leaf 0xFE06) (.leaf 0xFE07)) (.node 0x34F9341432 (.leaf 0xFE08) (.leaf 0x26DD)))))
def nameTree_472 : NameTree := .node 0x35579AF819 (.node 0x35388C7491 (.node 0x3531584B49 (.node 0x352F41D542 (.leaf 0x109C1) (.leaf 0x1F3D0)) (.node 0x3537F697C9 (.leaf 0x1F485) (.leaf 0x1F921))) (.node 0x3551F62E53 (.node 0x354FC48F9A (.leaf 0x1F4EA) (.leaf 0x587)) (.node 0x355388251B (.leaf 0x11350) (.leaf 0x10138)))) (.node 0x356428F37F (.node 0x355F46A388 (.node 0x3558CA862F (.leaf 0x294E) (.leaf 0xFFA1)) (.node 0x3560B52285 (.leaf 0x11EF) (.leaf 0x11A32))) (.node 0x356429077F (.node 0x356428FB7F (.leaf 0xCBE) (.leaf 0xCC8)) (.node 0x35642CF77F (.leaf 0xCCC) (.leaf 0xCC7))))
def nameTree_473 : NameTree := .node 0x352C446487 (.node 0x3511792540 (.node 0x35059012A1 (.node 0x35009C97C2 (.leaf 0x1A88) (.node 0x35029BDAA1 (.leaf 0x10119) (.leaf 0x331B))) (.node 0x350904DB46 (.node 0x3508297B99 (.leaf 0x330D) (.leaf 0xBF0)) (.node 0x3509E9C46D (.leaf 0x1F1A3) (.leaf 0x2AB1)))) (.node 0x35273B5A87 (.node 0x351AE5C3A4 (.node 0x3515509CC9 (.leaf 0x291D) (.leaf 0x8F5)) (.node 0x351FFF2B43 (.leaf 0xFD8F) (.leaf 0x3133))) (.node 0x352B366D87 (.node 0x35297B5AB3 (.leaf 0x109C0) (.leaf 0x12484)) (.node 0x352C326387 (.leaf 0x109C5) (.leaf 0x109C9))))) (nameTree_472)
def nameTree_474 : NameTree := .node 0x359640105D (.node 0x3586F33B2D (.node 0x35856B4B8A (.node 0x3584BAEACE (.leaf 0xA82A) (.leaf 0xA82B)) (.node 0x3586EF372D (.leaf 0x1F7C3) (.leaf 0x2DB3))) (.node 0x35905BA618 (.node 0x358AAD500B (.leaf 0x2DB4) (.leaf 0xFD6D)) (.node 0x359610B47D (.leaf 0xFD10) (.leaf 0x1E00F)))) (.node 0x35A08924A9 (.node 0x35A0891CA9 (.node 0x359640115D (.leaf 0x111DE) (.leaf 0x111DF)) (.node 0x35A08920A9 (.leaf 0xA140) (.leaf 0xA13D))) (.node 0x35A08D24A9 (.node 0x35A08D1CA9 (.leaf 0xA13E) (.leaf 0xA14A)) (.node 0x35A09111A9 (.leaf 0xA148) (.leaf 0xA13B))))
def nameTree_475 : NameTree := .node 0x3584BAE9CE (.node 0x357505372D (.node 0x3564814DAA (.node 0x356437017F (.leaf 0xCC0) (.node 0x35643D077F (.leaf 0xCCB) (.leaf 0xCC2))) (.node 0x3574EF372D (.node 0x3567BE5714 (.leaf 0xA721) (.leaf 0x109C2)) (.node 0x3574F33B2D (.leaf 0x12E3) (.leaf 0x12E4)))) (.node 0x358341BF03 (.node 0x3579766B1C (.node 0x3576E78857 (.leaf 0x12E7) (.leaf 0x1EFA)) (.node 0x3579953718 (.leaf 0x19FE) (.leaf 0x1F324))) (.node 0x3584BAE7CE (.node 0x3584B16614 (.leaf 0x39) (.leaf 0x33C)) (.node 0x3584BAE8CE (.leaf 0xA828) (.leaf 0xA829))))) (nameTree_474)
def nameTree_476 : NameTree := .node 0x35D5EAEB77 (.node 0x35B2731E4B (.node 0x35B19724A9 (.node 0x35A94D5ECB (.leaf 0x1D069) (.leaf 0x25C0)) (.node 0x35B19A24A9 (.leaf 0xA10B) (.leaf 0xA118))) (.node 0x35CA425D9F (.node 0x35C1774468 (.leaf 0x101F0) (.leaf 0x674)) (.node 0x35D3D6AE06 (.leaf 0x1F916) (.leaf 0x1CC0)))) (.node 0x35DAF485F0 (.node 0x35DA591CC3 (.node 0x35D7A75944 (.leaf 0x1EC6) (.leaf 0x2F33)) (.node 0x35DADB6007 (.leaf 0x273B) (.leaf 0x1F377))) (.node 0x35E934F6C4 (.node 0x35DC8C57BC (.leaf 0x1A73) (.leaf 0x2273)) (.node 0x35F94943B0 (.leaf 0x2979) (.leaf 0x1D1B2))))
def nameTree_477 : NameTree := .node 0x35A6B773B9 (.node 0x35A09D1CA9 (.node 0x35A0971CA9 (.node 0x35A09120A9 (.leaf 0xA139) (.node 0x35A09124A9 (.leaf 0xA136) (.leaf 0xA137))) (.node 0x35A09724A9 (.node 0x35A09720A9 (.leaf 0xA147) (.leaf 0xA144)) (.node 0x35A09D1BA9 (.leaf 0xA145) (.leaf 0xA142)))) (.node 0x35A3A10EDC (.node 0x35A09D20A9 (.node 0x35A09D1EA9 (.leaf 0xA14E) (.leaf 0xA150)) (.node 0x35A09D24A9 (.leaf 0xA14B) (.leaf 0xA14C))) (.node 0x35A58D1CA9 (.node 0x35A461D224 (.leaf 0x10885) (.leaf 0x5BC)) (.node 0x35A58D24A9 (.leaf 0xA106) (.leaf 0xA104))))) (nameTree_476)
def nameTree_478 : NameTree := .node 0x362F4D117C (.node 0x361B3577E3 (.node 0x36173CC485 (.node 0x3603808B89 (.leaf 0x22B5) (.node 0x360AB5B4BE (.leaf 0x260B) (.leaf 0x4F9))) (.node 0x361894E2F1 (.node 0x36173CD885 (.leaf 0x3275) (.leaf 0x327E)) (.node 0x3618EC580C (.leaf 0x3037) (.leaf 0xA9D7)))) (.node 0x362C3F0E7C (.node 0x36232DFC47 (.node 0x361EF4A942 (.leaf 0xFB94) (.leaf 0x324F)) (.node 0x3626FAEB3A (.leaf 0x3296) (.leaf 0xAED))) (.node 0x362E3F0E7C (.node 0x362D3BB82C (.leaf 0x10412) (.leaf 0xA9C3)) (.node 0x362F48107C (.leaf 0x10414) (.leaf 0x10425))))) (.node 0x36351C3AF4 (.node 0x36313B227C (.node 0x362F4E117C (.leaf 0x1041F) (.node 0x362F899E4D (.leaf 0x1041B) (.leaf 0x68D))) (.node 0x363328D340 (.node 0x36316016B9 (.leaf 0x10418) (.leaf 0x1F46D)) (.node 0x36343F0E7C (.leaf 0x279B) (.leaf 0x10416)))) (.node 0x363A3F0E7C (.node 0x36383964A2 (.node 0x36353B227C (.leaf 0x12461) (.leaf 0x10417)) (.node 0x36384C13E2 (.leaf 0xD7D3) (.leaf 0x1EE86))) (.node 0x363BD7F4D0 (.node 0x363B706EB8 (.leaf 0x10411) (.leaf 0xFC88)) (.node 0x363D99DF52 (.leaf 0x1F499) (.leaf 0xA92E)))))
def nameTree_479 : NameTree := .node 0x36819354A2 (.node 0x36704B8E78 (.node 0x366DCD6ABD (.node 0x366C34541C (.leaf 0x1D8CF) (.leaf 0x19FC)) (.node 0x366ED12742 (.leaf 0x109CE) (.leaf 0x1D097))) (.node 0x367FA36BE2 (.node 0x367A87E93F (.leaf 0x2B3B) (.leaf 0x20B7)) (.node 0x367FB03DE3 (.leaf 0x1F6CE) (.leaf 0xFED7)))) (.node 0x3696DCE12D (.node 0x3686838126 (.node 0x3685838126 (.leaf 0x12F) (.leaf 0x16B22)) (.node 0x3695A567BD (.leaf 0x16B20) (.leaf 0x1D814))) (.node 0x3699FF7B48 (.node 0x36979C02A5 (.leaf 0x1F4D6) (.leaf 0x11AE)) (.node 0x369B3C5314 (.leaf 0x2A2C) (.leaf 0x248F))))
def nameTree_480 : NameTree := .node 0x36680B73AF (.node 0x36474CAF77 (.node 0x3641C59C70 (.node 0x363E3F0E7C (.leaf 0xD7D4) (.node 0x36403F0E7C (.leaf 0x10413) (.leaf 0x1041A))) (.node 0x36436693E3 (.node 0x36433F0E7C (.leaf 0xA740) (.leaf 0x1040F)) (.node 0x36443F0E7C (.leaf 0xFEDB) (.leaf 0x1041E)))) (.node 0x365CC160FB (.node 0x3651B38293 (.node 0x364E5879FB (.leaf 0x1D8B) (.leaf 0x1F802)) (.node 0x365BCD6652 (.leaf 0xFEF6) (.leaf 0x109CD))) (.node 0x366475A334 (.node 0x3662DD1135 (.leaf 0x109C7) (.leaf 0x64D)) (.node 0x366770F81C (.leaf 0xABD1) (.leaf 0x19FD))))) (nameTree_479)
def nameTree_481 : NameTree := .node 0x370080B9AF (.node 0x36EAF1B061 (.node 0x36E8DD0F46 (.node 0x36E8202223 (.leaf 0xFCF5) (.leaf 0x237D)) (.node 0x36E96C3585 (.leaf 0xAD) (.leaf 0x1D067))) (.node 0x36FBC39E66 (.node 0x36FA8ABEE7 (.leaf 0x57F) (.leaf 0x759)) (.node 0x36FD4A5343 (.leaf 0x2AE9) (.leaf 0x2295)))) (.node 0x3716B32BA7 (.node 0x37055A4202 (.node 0x37055A3D02 (.leaf 0x859) (.leaf 0x2141)) (.node 0x37055A4F02 (.leaf 0x2142) (.leaf 0x2144))) (.node 0x3723CC10FE (.node 0x371C9AA9CF (.leaf 0x1E01) (.leaf 0x1F0BF)) (.node 0x3723E5C9D3 (.leaf 0xFCE6) (.leaf 0x2DF5))))
def nameTree_482 : NameTree := .node 0x36E2FF588A (.node 0x36C46F3D1E (.node 0x36AECE5BEB (.node 0x36A39D27DC (.leaf 0x10891) (.node 0x36AECE55EB (.leaf 0x10896) (.leaf 0x90C))) (.node 0x36BE6EAD20 (.node 0x36B815A91C (.leaf 0x90B) (.leaf 0xAFC)) (.node 0x36C0742A1E (.leaf 0x2C79) (.leaf 0x11367)))) (.node 0x36D9F48945 (.node 0x36C862B52E (.node 0x36C57D341E (.leaf 0x1136C) (.leaf 0x11368)) (.node 0x36D2DFD5FE (.leaf 0x7AD) (.leaf 0x1F37A))) (.node 0x36DE2F5212 (.node 0x36DBF8A114 (.leaf 0x23CF) (.leaf 0x1E00A)) (.node 0x36DE5FA56A (.leaf 0x2206) (.leaf 0x1DC0))))) (nameTree_481)
def nameTree_483 : NameTree := .node 0x378D97D2FB (.node 0x37860E2AD3 (.node 0x3770CE275B (.node 0x376679567C (.leaf 0x543) (.leaf 0xFD04)) (.node 0x3776E30C2A (.leaf 0x1D000) (.leaf 0x2C42))) (.node 0x3789C369F0 (.node 0x37860F37D3 (.leaf 0x16AD6) (.leaf 0x16ADD)) (.node 0x378C0F27D3 (.leaf 0x1F4ED) (.leaf 0x16AD4)))) (.node 0x3793BC86B8 (.node 0x3792BE86B8 (.node 0x3790E64830 (.leaf 0xA836) (.leaf 0x26CE)) (.node 0x3792FF408B (.leaf 0x102CE) (.leaf 0x658))) (.node 0x3793BC88B8 (.node 0x3793BC87B8 (.leaf 0x102CB) (.leaf 0x102CC)) (.node 0x37942437D3 (.leaf 0x102CD) (.leaf 0x16AE0))))
def nameTree_484 : NameTree := .node 0x376467016F (.node 0x3741BF1AC7 (.node 0x37307C7337 (.node 0x372CC31A5A (.leaf 0x1BC71) (.node 0x372F8754A5 (.leaf 0x2B3F) (.leaf 0x1D916))) (.node 0x37333CB318 (.node 0x3732D79753 (.leaf 0x2106) (.leaf 0x11F9)) (.node 0x3735B40D83 (.leaf 0x589) (.leaf 0x12453)))) (.node 0x374FDA3728 (.node 0x37442D316E (.node 0x3741BF26DB (.leaf 0xA9C8) (.leaf 0xA9C9)) (.node 0x3746352B87 (.leaf 0xFC99) (.leaf 0xFC3))) (.node 0x3752805D3D (.node 0x375251656D (.leaf 0x26FD) (.leaf 0x2616)) (.node 0x375EE1842F (.leaf 0x1E9D) (.leaf 0x2357))))) (nameTree_483)
def nameTree_485 : NameTree := .node 0x37BF378AE0 (.node 0x37A23FF074 (.node 0x379ACE86B8 (.node 0x3799C286B8 (.leaf 0x16AD5) (.node 0x3799CE86B8 (.leaf 0x102AF) (.leaf 0x102C3))) (.node 0x379EC3884F (.node 0x379BCFA9B8 (.leaf 0x102B6) (.leaf 0x102A4)) (.node 0x37A06734B6 (.leaf 0x1160) (.leaf 0x2F36)))) (.node 0x37B0FAFC2E (.node 0x37A4490A65 (.node 0x37A39F3539 (.leaf 0x29E5) (.leaf 0x1F4D5)) (.node 0x37B0B6014B (.leaf 0xFE61) (.leaf 0x1D91B))) (.node 0x37B19A24A9 (.node 0x37B16AA200 (.leaf 0x1F44) (.leaf 0x75F)) (.node 0x37B95A9C57 (.leaf 0xA0DC) (.leaf 0x1D8D0))))) (.node 0x37CC5DBCD4 (.node 0x37C3FDCE80 (.node 0x37BF5DBCD4 (.leaf 0x2597) (.node 0x37C27E9913 (.leaf 0x1D6A) (.leaf 0x145B1))) (.node 0x37CA5B5428 (.node 0x37C4A036D0 (.leaf 0x1D0E2) (.leaf 0xFBEA)) (.node 0x37CAA1D7A5 (.leaf 0x1F4C1) (.leaf 0x121EF)))) (.node 0x37CCB514F1 (.node 0x37CCB508F1 (.node 0x37CCB500F1 (.leaf 0x1D69) (.leaf 0x2DF6)) (.node 0x37CCB50EF1 (.leaf 0xA675) (.leaf 0x2DEA))) (.node 0x37D58AA1AB (.node 0x37CE5DC2D4 (.leaf 0xA677) (.leaf 0x1D68)) (.node 0x37D9E514BB (.leaf 0x1F81A) (.leaf 0x1F4D7)))))
def nameTree_486 : NameTree := .node 0x383307DB7C (.node 0x3828A5B701 (.node 0x3828A5AB01 (.node 0x3828A5A701 (.leaf 0xA85D) (.leaf 0xA860)) (.node 0x3828A5B101 (.leaf 0xA85E) (.leaf 0xA861))) (.node 0x382DFED17C (.node 0x38297A0AA6 (.leaf 0xA85F) (.leaf 0x1F5E0)) (.node 0x3832F5DA7C (.leaf 0x103D1) (.leaf 0x103D3)))) (.node 0x383BC8BC26 (.node 0x383BC4B826 (.node 0x383A939ECB (.leaf 0x103D2) (.leaf 0x313)) (.node 0x383BC5B826 (.leaf 0x1049B) (.leaf 0x10481))) (.node 0x383BCAB826 (.node 0x383BC9B826 (.leaf 0x1049C) (.leaf 0x1048D)) (.node 0x383BCBB826 (.leaf 0x1048C) (.leaf 0x10494))))
def nameTree_487 : NameTree := .node 0x3828A5A301 (.node 0x3810F68886 (.node 0x37F63F2ACA (.node 0x37E7879852 (.leaf 0x2425) (.node 0x37F58A18DA (.leaf 0x2274) (.leaf 0x332D))) (.node 0x37FD5E45EC (.node 0x37F8A3BF74 (.leaf 0x1F6E5) (.leaf 0x32A1)) (.node 0x3806672771 (.leaf 0x29EC) (.leaf 0x8D8)))) (.node 0x3820DB5BB0 (.node 0x381B3D076F (.node 0x38127AED89 (.leaf 0x2AC) (.leaf 0x1D01B)) (.node 0x381E94063A (.leaf 0x11D40) (.leaf 0x1BF2))) (.node 0x3822325212 (.node 0x3821BF4C64 (.leaf 0x2AA8) (.leaf 0x1F368)) (.node 0x382709D1CD (.leaf 0x2441) (.leaf 0x11CAF))))) (nameTree_486)
def nameTree_488 : NameTree := .node 0x387B7A8793 (.node 0x386C37A8F1 (.node 0x386A298F4F (.node 0x3861A22A0B (.leaf 0x122B3) (.leaf 0x21D3)) (.node 0x386B2D1702 (.leaf 0x16B2D) (.leaf 0xFCE9))) (.node 0x386F031FF2 (.node 0x386EA34907 (.leaf 0x21AA) (.leaf 0xFD2F)) (.node 0x387373B891 (.leaf 0x11C1B) (.leaf 0x25CF)))) (.node 0x388F1842AC (.node 0x388CB62A51 (.node 0x388A3484F4 (.leaf 0x1F3B2) (.leaf 0x1F945)) (.node 0x388F0E48AC (.leaf 0x12152) (.leaf 0x858))) (.node 0x388F194EAC (.node 0x388F1854AC (.leaf 0x854) (.leaf 0x851)) (.node 0x3894373F22 (.leaf 0x848) (.leaf 0x21E5))))
def nameTree_489 : NameTree := .node 0x3860DE1F66 (.node 0x3840C47D61 (.node 0x383BD6B826 (.node 0x383BD2C626 (.leaf 0x10483) (.node 0x383BD5B826 (.leaf 0x1049D) (.leaf 0x10487))) (.node 0x383BDBB826 (.node 0x383BD7B826 (.leaf 0x10488) (.leaf 0x10482)) (.node 0x383BDCB826 (.leaf 0x10484) (.leaf 0x10495)))) (.node 0x384C82028B (.node 0x384952E6F0 (.node 0x38486552E9 (.leaf 0x16F25) (.leaf 0x21F3)) (.node 0x38499EC3BB (.leaf 0x1D878) (.leaf 0x2A07))) (.node 0x384D084202 (.node 0x384CD77D61 (.leaf 0x1FAC) (.leaf 0x16F3F)) (.node 0x3858BEB375 (.leaf 0xFD37) (.leaf 0x1D6EA))))) (nameTree_488)
def nameTree_490 : NameTree := .node 0x38A39D24A9 (.node 0x38A39D1BA9 (.node 0x38A39720A9 (.node 0x38A3971CA9 (.leaf 0xA215) (.leaf 0xA225)) (.node 0x38A39724A9 (.leaf 0xA222) (.leaf 0xA223))) (.node 0x38A39D1EA9 (.node 0x38A39D1CA9 (.leaf 0xA220) (.leaf 0xA22D)) (.node 0x38A39D20A9 (.leaf 0xA22F) (.leaf 0xA22A)))) (.node 0x38A58D24A9 (.node 0x38A58D1CA9 (.node 0x38A3E2F391 (.leaf 0xA22B) (.leaf 0x1EC1)) (.node 0x38A58D20A9 (.leaf 0xA1E1) (.leaf 0xA1DE))) (.node 0x38B19720A9 (.node 0x38B1971CA9 (.leaf 0xA1DF) (.leaf 0xA1E9)) (.node 0x38B19724A9 (.leaf 0xA1E6) (.leaf 0xA1E7))))
def nameTree_491 : NameTree := .node 0x38A39124A9 (.node 0x38A3891CA9 (.node 0x389A47418D (.node 0x389640FBA3 (.leaf 0x1D8BD) (.node 0x3899063EAC (.leaf 0x229) (.leaf 0x857))) (.node 0x389CC00B39 (.node 0x389C3063AA (.leaf 0x223B) (.leaf 0x1F73E)) (.node 0x389E670F37 (.leaf 0x1F4BE) (.leaf 0x11C8)))) (.node 0x38A38D20A9 (.node 0x38A38924A9 (.node 0x38A38920A9 (.leaf 0xA21D) (.leaf 0xA21A)) (.node 0x38A38D1CA9 (.leaf 0xA21B) (.leaf 0xA229))) (.node 0x38A39111A9 (.node 0x38A38D24A9 (.leaf 0xA226) (.leaf 0xA227)) (.node 0x38A39120A9 (.leaf 0xA218) (.leaf 0xA214))))) (nameTree_490)
def nameTree_492 : NameTree := .node 0x38D8B882E5 (.node 0x38C6A4587A (.node 0x38BF8C6BA2 (.node 0x38B265EA8D (.leaf 0xA1F6) (.node 0x38B864F78D (.leaf 0x1113B) (.leaf 0x1113A))) (.node 0x38C2D1622C (.node 0x38C0C2E144 (.leaf 0x20AF) (.leaf 0xAAC1)) (.node 0x38C2E34ABA (.leaf 0x118A0) (.leaf 0x334A)))) (.node 0x38D7ED9847 (.node 0x38D0DE682C (.node 0x38CCB188D1 (.leaf 0xFBE8) (.leaf 0x23C9)) (.node 0x38D5BFDB38 (.leaf 0x118B3) (.leaf 0x206))) (.node 0x38D8B582E5 (.node 0x38D806342A (.leaf 0x1A6C) (.leaf 0x1D873)) (.node 0x38D8B782E5 (.leaf 0x1869) (.leaf 0x186B))))) (.node 0x38D8C686E5 (.node 0x38D8BB82E5 (.node 0x38D8B982E5 (.leaf 0x1864) (.node 0x38D8BA9AE5 (.leaf 0x1865) (.leaf 0x185F))) (.node 0x38D8C182E5 (.node 0x38D8BC82E5 (.leaf 0x186A) (.leaf 0x1863)) (.node 0x38D8C582E5 (.leaf 0x1866) (.leaf 0x1868)))) (.node 0x38DB976C99 (.node 0x38D8EE4209 (.node 0x38D8CB82E5 (.leaf 0x1860) (.leaf 0x186F)) (.node 0x38D9AC448E (.leaf 0x6B7) (.leaf 0x35C))) (.node 0x38EA011203 (.node 0x38E383D041 (.leaf 0xAABB) (.leaf 0x2E30)) (.node 0x38EF07FBE6 (.leaf 0x3003) (.leaf 0xA64E)))))
def nameTree_493 : NameTree := .node 0x3935643CBF (.node 0x392A491F1C (.node 0x392728D384 (.node 0x3922FAE291 (.leaf 0x25) (.leaf 0xAE9)) (.node 0x392858C8DF (.leaf 0x1F359) (.leaf 0xFC20))) (.node 0x39356430BF (.node 0x3935642CBF (.leaf 0xB5) (.leaf 0xCC6)) (.node 0x39356436BF (.leaf 0xCBF) (.leaf 0xCCA)))) (.node 0x3949B90490 (.node 0x393899176C (.node 0x3936766ED9 (.leaf 0xCC1) (.leaf 0x19FB)) (.node 0x394350DB41 (.leaf 0xA9B4) (.leaf 0x124BE))) (.node 0x394ECC8414 (.node 0x3949F5C9F7 (.leaf 0x35A) (.leaf 0xEDF)) (.node 0x3952304373 (.leaf 0x694) (.leaf 0xEC6))))
def nameTree_494 : NameTree := .node 0x391C377A43 (.node 0x39065FA5D3 (.node 0x38F3E76620 (.node 0x38F1FE6CD0 (.leaf 0xAAB9) (.node 0x38F37A6271 (.leaf 0x11A39) (.leaf 0x231C))) (.node 0x3900BEF65E (.node 0x38FEFFB894 (.leaf 0xEBC) (.leaf 0x3231)) (.node 0x390500C694 (.leaf 0x93D) (.leaf 0x323B)))) (.node 0x390E4E6115 (.node 0x39094C1245 (.node 0x3908BE013E (.leaf 0xD00) (.leaf 0x2340)) (.node 0x390D441645 (.leaf 0x1D8A2) (.leaf 0x3347))) (.node 0x3914EC4F63 (.node 0x3910E211B8 (.leaf 0x1153) (.leaf 0x1FF7)) (.node 0x391B4372C9 (.leaf 0xA9D3) (.leaf 0x1F7B4))))) (nameTree_493)
def nameTree_495 : NameTree := .node 0x39942C365B (.node 0x39829AAF0D (.node 0x39810D4579 (.node 0x397FA4BDEE (.leaf 0x1F80A) (.leaf 0x11E8)) (.node 0x3982838126 (.leaf 0x32C8) (.leaf 0x16B23))) (.node 0x398E2D0A8A (.node 0x398D2D10A8 (.leaf 0x268) (.leaf 0x1F70)) (.node 0x39942C2E5B (.leaf 0x1F01) (.leaf 0x11721)))) (.node 0x399440425B (.node 0x39942C445B (.node 0x39942C3A5B (.leaf 0x11729) (.leaf 0x1172A)) (.node 0x399434365B (.leaf 0x11727) (.leaf 0x11723))) (.node 0x39A1AFBC4B (.node 0x399FA51D15 (.leaf 0x11725) (.leaf 0x1D0F5)) (.node 0x39A58D24A9 (.leaf 0x1244F) (.leaf 0xA26F))))
def nameTree_496 : NameTree := .node 0x397D9833D1 (.node 0x395D425C90 (.node 0x395D3A6590 (.node 0x395232506E (.leaf 0xEDD) (.node 0x395756F15E (.leaf 0xEDC) (.leaf 0x1CD1))) (.node 0x395D415890 (.node 0x395D3E5D90 (.leaf 0x10350) (.leaf 0x1036B)) (.node 0x395D425890 (.leaf 0x1036C) (.leaf 0x10375)))) (.node 0x39601C9D3D (.node 0x395D525890 (.node 0x395D486690 (.leaf 0x10372) (.leaf 0x1036A)) (.node 0x395D526C90 (.leaf 0x10374) (.leaf 0x10373))) (.node 0x3973E666C4 (.node 0x39715D77E5 (.leaf 0x1F665) (.leaf 0xE2)) (.node 0x397AE6B28B (.leaf 0x2C38) (.leaf 0x1F688))))) (nameTree_495)
def nameTree_497 : NameTree := .node 0x39A99111A9 (.node 0x39A8A124A9 (.node 0x39A8A11EA9 (.node 0x39A8A11CA9 (.leaf 0xA1AC) (.leaf 0xA1B4)) (.node 0x39A8A120A9 (.leaf 0xA1B6) (.leaf 0xA1B1))) (.node 0x39A98920A9 (.node 0x39A9891CA9 (.leaf 0xA1B2) (.leaf 0xA09B)) (.node 0x39A98924A9 (.leaf 0xA098) (.leaf 0xA099)))) (.node 0x39A9971CA9 (.node 0x39A99120A9 (.node 0x39A9911CA9 (.leaf 0xA096) (.leaf 0xA094)) (.node 0x39A99124A9 (.leaf 0xA091) (.leaf 0xA092))) (.node 0x39A99724A9 (.node 0x39A99720A9 (.leaf 0xA0A2) (.leaf 0xA09F)) (.node 0x39A99D1BA9 (.leaf 0xA0A0) (.leaf 0xA09D))))
def nameTree_498 : NameTree := .node 0x39A89D24A9 (.node 0x39A89120A9 (.node 0x39A88D1CA9 (.node 0x39A88920A9 (.leaf 0xA1A1) (.node 0x39A88924A9 (.leaf 0xA19E) (.leaf 0xA19F))) (.node 0x39A89111A9 (.node 0x39A88D24A9 (.leaf 0xA1AA) (.leaf 0xA1A8)) (.node 0x39A8911CA9 (.leaf 0xA19C) (.leaf 0xA19A)))) (.node 0x39A89D1BA9 (.node 0x39A8971CA9 (.node 0x39A89124A9 (.leaf 0xA197) (.leaf 0xA198)) (.node 0x39A89724A9 (.leaf 0xA1A7) (.leaf 0xA1A5))) (.node 0x39A89D1EA9 (.node 0x39A89D1CA9 (.leaf 0xA1A3) (.leaf 0xA1AE)) (.node 0x39A89D20A9 (.leaf 0xA1B0) (.leaf 0xA1AB))))) (nameTree_497)
def nameTree_499 : NameTree := .node 0x39AA9124A9 (.node 0x39AA891CA9 (.node 0x39A99D24A9 (.node 0x39A99D1EA9 (.leaf 0xA0A6) (.node 0x39A99D20A9 (.leaf 0xA0A8) (.leaf 0xA0A3))) (.node 0x39A9A11EA9 (.node 0x39A9A11CA9 (.leaf 0xA0A4) (.leaf 0xA0AB)) (.node 0x39A9A124A9 (.leaf 0xA0AD) (.leaf 0xA0A9)))) (.node 0x39AA8D24A9 (.node 0x39AA8924A9 (.node 0x39AA8920A9 (.leaf 0xA173) (.leaf 0xA170)) (.node 0x39AA8D1CA9 (.leaf 0xA171) (.leaf 0xA17B))) (.node 0x39AA911CA9 (.node 0x39AA9111A9 (.leaf 0xA179) (.leaf 0xA16E)) (.node 0x39AA9120A9 (.leaf 0xA16B) (.leaf 0xA168))))) (.node 0x39AEBEEDD1 (.node 0x39AA9724A9 (.node 0x39AA971CA9 (.leaf 0xA169) (.node 0x39AA9720A9 (.leaf 0xA178) (.leaf 0xA176))) (.node 0x39AA9D20A9 (.node 0x39AA9D1BA9 (.leaf 0xA177) (.leaf 0xA175)) (.node 0x39AB694C3C (.leaf 0xA17C) (.leaf 0x11669)))) (.node 0x39B2D21DC8 (.node 0x39B19720A9 (.node 0x39B1971CA9 (.leaf 0x10172) (.leaf 0xA278)) (.node 0x39B19724A9 (.leaf 0xA275) (.leaf 0xA276))) (.node 0x39B48920A9 (.node 0x39B4891CA9 (.leaf 0x19D) (.leaf 0xA251)) (.node 0x39B48924A9 (.leaf 0xA24E) (.leaf 0xA24F)))))
def nameTree_500 : NameTree := .node 0x3A02D1C2FA (.node 0x39DD57E345 (.node 0x39D7B66594 (.node 0x39D1280557 (.leaf 0x1D7C7) (.leaf 0x12202)) (.node 0x39DC3687DB (.leaf 0xF87) (.leaf 0x1F6B3))) (.node 0x39EADADF76 (.node 0x39DE9CAD28 (.leaf 0x208A) (.leaf 0x2C9)) (.node 0x39EDFCE5CA (.leaf 0x11239) (.leaf 0x1D95A)))) (.node 0x3A0841D251 (.node 0x3A03D1C2FA (.node 0x3A03487636 (.leaf 0xF5A) (.leaf 0x334D)) (.node 0x3A04FCD74F (.leaf 0xF4B) (.leaf 0x3351))) (.node 0x3A10733C29 (.node 0x3A09EF594A (.leaf 0x233F) (.leaf 0xA9D8)) (.node 0x3A15523C32 (.leaf 0x1D8B8) (.leaf 0x2107))))
def nameTree_501 : NameTree := .node 0x39CA95EB14 (.node 0x39B49720A9 (.node 0x39B4911CA9 (.node 0x39B48D24A9 (.leaf 0xA25C) (.node 0x39B49111A9 (.leaf 0xA25A) (.leaf 0xA24C))) (.node 0x39B49124A9 (.node 0x39B49120A9 (.leaf 0xA249) (.leaf 0xA246)) (.node 0x39B4971CA9 (.leaf 0xA247) (.leaf 0xA259)))) (.node 0x39B746D2E0 (.node 0x39B49D1BA9 (.node 0x39B49724A9 (.leaf 0xA256) (.leaf 0xA257)) (.node 0x39B5B3DF4B (.leaf 0xA254) (.leaf 0x12434))) (.node 0x39C0C5F5E1 (.node 0x39B780B2D7 (.leaf 0x10E75) (.leaf 0x1DA6A)) (.node 0x39C6E809B6 (.leaf 0x114E) (.leaf 0x2139))))) (nameTree_500)
def nameTree_502 : NameTree := .node 0x3A5A039A18 (.node 0x3A5172FBD3 (.node 0x3A48A58AF5 (.node 0x3A453C715B (.leaf 0x2B15) (.leaf 0x1B5B)) (.node 0x3A513D3728 (.leaf 0x293C) (.leaf 0x2E))) (.node 0x3A56D30195 (.node 0x3A52EFA318 (.leaf 0xA6EF) (.leaf 0x2F96)) (.node 0x3A57009918 (.leaf 0x10192) (.leaf 0x2FC3)))) (.node 0x3A5D0009E0 (.node 0x3A5CF2AE18 (.node 0x3A5CEFA918 (.leaf 0x2FAD) (.leaf 0x2F88)) (.node 0x3A5CFC9A18 (.leaf 0x2F9D) (.leaf 0x2FBB))) (.node 0x3A61F209E0 (.node 0x3A5FF109E0 (.leaf 0x19A8) (.leaf 0x1987)) (.node 0x3A64D9FB08 (.leaf 0x1998) (.leaf 0x1ED6))))
def nameTree_503 : NameTree := .node 0x3A4486F0D0 (.node 0x3A2DFA05E7 (.node 0x3A248E0CB3 (.node 0x3A18BA7AE1 (.leaf 0xAEE) (.node 0x3A1E1B95C5 (.leaf 0x671) (.leaf 0x2A35))) (.node 0x3A263D9171 (.node 0x3A255C1F4A (.leaf 0x1D865) (.leaf 0xFE3A)) (.node 0x3A2890A731 (.leaf 0x1D7C5) (.leaf 0x1F4F1)))) (.node 0x3A38EC03A7 (.node 0x3A32C0C298 (.node 0x3A2F930FBD (.leaf 0x16840) (.leaf 0x67A)) (.node 0x3A33BE4341 (.leaf 0x25DB) (.leaf 0x2596))) (.node 0x3A41224AE3 (.node 0x3A3A6CA8C5 (.leaf 0x1F342) (.leaf 0x19FF)) (.node 0x3A43B045BF (.leaf 0x2286) (.leaf 0x1A30))))) (nameTree_502)
def nameTree_504 : NameTree := .node 0x3A6C32EDD2 (.node 0x3A6C32E7D2 (.node 0x3A6C32E5D2 (.node 0x3A6C32E4D2 (.leaf 0x1D37) (.leaf 0x1D38)) (.node 0x3A6C32E6D2 (.leaf 0x1D39) (.leaf 0x1D3A))) (.node 0x3A6C32EAD2 (.node 0x3A6C32E8D2 (.leaf 0x1D3C) (.leaf 0x1D3E)) (.node 0x3A6C32ECD2 (.leaf 0x1D3F) (.leaf 0x1D40)))) (.node 0x3A70CC9677 (.node 0x3A6C32EFD2 (.node 0x3A6C32EED2 (.leaf 0x1D41) (.leaf 0x2C7D)) (.node 0x3A6C8328FC (.leaf 0x1D42) (.leaf 0x1F1A1))) (.node 0x3A7C44DD02 (.node 0x3A7AFB294B (.leaf 0x136F) (.leaf 0x657)) (.node 0x3A7DE73ABC (.leaf 0x21EB) (.leaf 0x3303))))
def nameTree_505 : NameTree := .node 0x3A6C32E3D2 (.node 0x3A6C32D9D2 (.node 0x3A65FD09E0 (.node 0x3A65935B1B (.leaf 0x19AB) (.node 0x3A65F209E0 (.leaf 0x10170) (.leaf 0x1992))) (.node 0x3A6AFBDBEE (.node 0x3A6A0009E0 (.leaf 0x198B) (.leaf 0x19A9)) (.node 0x3A6B08FCFC (.leaf 0x1B1) (.leaf 0x1CDE)))) (.node 0x3A6C32DFD2 (.node 0x3A6C32DCD2 (.node 0x3A6C32DAD2 (.leaf 0x1D2C) (.leaf 0x1D2E)) (.node 0x3A6C32DDD2 (.leaf 0x1D30) (.leaf 0x1D31))) (.node 0x3A6C32E1D2 (.node 0x3A6C32E0D2 (.leaf 0x1D33) (.leaf 0x1D34)) (.node 0x3A6C32E2D2 (.leaf 0x1D35) (.leaf 0x1D36))))) (nameTree_504)
def nameTree_506 : NameTree := .node 0x3AAD333087 (.node 0x3A92F1EC5D (.node 0x3A86DDB025 (.node 0x3A7FDDEAF3 (.leaf 0x2C29) (.node 0x3A866E5B03 (.leaf 0x11A5) (.leaf 0x121DE))) (.node 0x3A92E6E15D (.node 0x3A920BF832 (.leaf 0xD72) (.leaf 0x255D)) (.node 0x3A92EAE15D (.leaf 0x10935) (.leaf 0x10936)))) (.node 0x3A93A7AADF (.node 0x3A92F8E65D (.node 0x3A92F3E15D (.leaf 0x10937) (.leaf 0x10938)) (.node 0x3A92F9E75D (.leaf 0x1092E) (.leaf 0x10934))) (.node 0x3AA7DDAEB6 (.node 0x3A9FFDE5F1 (.leaf 0x1F832) (.leaf 0x29FB)) (.node 0x3AAA8922D9 (.leaf 0x2157) (.leaf 0x12045))))) (.node 0x3AE1884761 (.node 0x3AD34C2916 (.node 0x3AB9185FE3 (.leaf 0x219B) (.node 0x3AB9186FE3 (.leaf 0x6D0) (.leaf 0x6C7))) (.node 0x3AE0503116 (.node 0x3ADDD6E7F4 (.leaf 0x5D0) (.leaf 0x1D980)) (.node 0x3AE1884361 (.leaf 0x5E2) (.leaf 0x1920)))) (.node 0x3AE30AEF65 (.node 0x3AE1885161 (.node 0x3AE1884B61 (.leaf 0x1927) (.leaf 0x1921)) (.node 0x3AE1885761 (.leaf 0x1928) (.leaf 0x1922))) (.node 0x3AEE753172 (.node 0x3AED36E793 (.leaf 0x20BF) (.leaf 0x1F5CA)) (.node 0x3AEF7E50AE (.leaf 0x27E7) (.leaf 0x1FDD)))))
def nameTree_507 : NameTree := .node 0x3B1D83F702 (.node 0x3B1D71F302 (.node 0x3B1D6EFD02 (.node 0x3B1D6EF702 (.leaf 0xAB2D) (.leaf 0xAB2A)) (.node 0x3B1D6F0302 (.leaf 0xAB2E) (.leaf 0xAB29))) (.node 0x3B1D83EF02 (.node 0x3B1D7BEF02 (.leaf 0x1264) (.leaf 0x2D85)) (.node 0x3B1D83F302 (.leaf 0x1267) (.leaf 0x1387)))) (.node 0x3B1E6FF302 (.node 0x3B1E6DEF02 (.node 0x3B1DEF1EC1 (.leaf 0x1385) (.leaf 0xF12)) (.node 0x3B1E6FEF02 (.leaf 0x127B) (.leaf 0x2DA8))) (.node 0x3B1E6FFD02 (.node 0x3B1E6FF702 (.leaf 0x2DAD) (.leaf 0x2DAA)) (.node 0x3B1E700302 (.leaf 0x2DAE) (.leaf 0x2DA9))))
def nameTree_508 : NameTree := .node 0x3B1D6EF302 (.node 0x3B0646CD40 (.node 0x3AF77850A8 (.node 0x3AF62EC2A1 (.leaf 0x23DC) (.node 0x3AF62ED188 (.leaf 0x3313) (.leaf 0x33A5))) (.node 0x3B0163881B (.node 0x3AFEF582B8 (.leaf 0x153F) (.leaf 0x1082)) (.node 0x3B06101F5C (.leaf 0x1D847) (.leaf 0x1F4C)))) (.node 0x3B14FDBF1D (.node 0x3B12D7BD9F (.node 0x3B0AA27DEC (.leaf 0x3348) (.leaf 0xFB9E)) (.node 0x3B13280507 (.leaf 0x1BAA) (.leaf 0x2EC9))) (.node 0x3B1D6DEF02 (.node 0x3B1D6A6F42 (.leaf 0x108E2) (.leaf 0x2978)) (.node 0x3B1D6EEF02 (.leaf 0x1263) (.leaf 0xAB28))))) (nameTree_507)
def nameTree_509 : NameTree := .node 0x3B2171F302 (.node 0x3B1F86F702 (.node 0x3B1F83EF02 (.node 0x3B1F7BEF02 (.leaf 0x12F4) (.leaf 0x2D8C)) (.node 0x3B1F86F302 (.leaf 0x12F7) (.leaf 0xAB15))) (.node 0x3B1F870302 (.node 0x3B1F86FD02 (.leaf 0xAB12) (.leaf 0xAB16)) (.node 0x3B216DEF02 (.leaf 0xAB11) (.leaf 0x134B)))) (.node 0x3B2185EF02 (.node 0x3B2183F302 (.node 0x3B2183EF02 (.leaf 0x134C) (.leaf 0x134F)) (.node 0x3B2183F702 (.leaf 0x138B) (.leaf 0x1389))) (.node 0x3B2271F302 (.node 0x3B226DEF02 (.leaf 0x135A) (.leaf 0x130B)) (.node 0x3B2273EF02 (.leaf 0x130C) (.leaf 0x1318))))
def nameTree_510 : NameTree := .node 0x3B1F71F302 (.node 0x3B1E83EF02 (.node 0x3B1E74F702 (.node 0x3B1E74EF02 (.leaf 0x127C) (.node 0x3B1E74F302 (.leaf 0x1328) (.leaf 0x132D))) (.node 0x3B1E750302 (.node 0x3B1E74FD02 (.leaf 0x132A) (.leaf 0x132E)) (.node 0x3B1E7BEF02 (.leaf 0x1329) (.leaf 0x2D87)))) (.node 0x3B1F70F302 (.node 0x3B1F6DEF02 (.node 0x3B1EF6BFF8 (.leaf 0x127F) (.leaf 0xFC1C)) (.node 0x3B1F70EF02 (.leaf 0x12F3) (.leaf 0x12F8))) (.node 0x3B1F70FD02 (.node 0x3B1F70F702 (.leaf 0x12FD) (.leaf 0x12FA)) (.node 0x3B1F710302 (.leaf 0x12FE) (.leaf 0x12F9))))) (nameTree_509)
def nameTree_511 : NameTree := .node 0x3B257BEF02 (.node 0x3B23750302 (.node 0x3B2374F702 (.node 0x3B2374F302 (.leaf 0x1210) (.leaf 0x1215)) (.node 0x3B2374FD02 (.leaf 0x1212) (.leaf 0x1216))) (.node 0x3B256DEF02 (.node 0x3B237BEF02 (.leaf 0x1211) (.leaf 0x1207)) (.node 0x3B2571F302 (.leaf 0x1303) (.leaf 0x1304)))) (.node 0x3B267BEF02 (.node 0x3B266DEF02 (.node 0x3B2583EF02 (.leaf 0x2D8E) (.leaf 0x1307)) (.node 0x3B2671F302 (.leaf 0x12AB) (.leaf 0x12AC))) (.node 0x3B2683F302 (.node 0x3B2683EF02 (.leaf 0x12AF) (.leaf 0x12B0)) (.node 0x3B2683F702 (.leaf 0x12B5) (.leaf 0x12B2))))
def nameTree_512 : NameTree := .node 0x3B2374EF02 (.node 0x3B2283F702 (.node 0x3B22740302 (.node 0x3B2273F702 (.leaf 0x131D) (.node 0x3B2273FD02 (.leaf 0x131A) (.leaf 0x131E))) (.node 0x3B2283EF02 (.node 0x3B227BEF02 (.leaf 0x1319) (.leaf 0x130F)) (.node 0x3B2283F302 (.leaf 0x1310) (.leaf 0x1315)))) (.node 0x3B2285FD02 (.node 0x3B2285F302 (.node 0x3B2285EF02 (.leaf 0x1312) (.leaf 0x2DD8)) (.node 0x3B2285F702 (.leaf 0x2DDD) (.leaf 0x2DDA))) (.node 0x3B236DEF02 (.node 0x3B22860302 (.leaf 0x2DDE) (.leaf 0x2DD9)) (.node 0x3B2371F302 (.leaf 0x1203) (.leaf 0x1204))))) (nameTree_511)
def nameTree_513 : NameTree := .node 0x3B2971F302 (.node 0x3B2883F702 (.node 0x3B2883EF02 (.node 0x3B287BEF02 (.leaf 0x121C) (.leaf 0x2D81)) (.node 0x3B2883F302 (.leaf 0x121F) (.leaf 0x1383))) (.node 0x3B28F3024A (.node 0x3B2885EF02 (.leaf 0x1381) (.leaf 0x1359)) (.node 0x3B296DEF02 (.leaf 0x237E) (.leaf 0x1293)))) (.node 0x3B2985F302 (.node 0x3B2983EF02 (.node 0x3B297BEF02 (.leaf 0x1294) (.leaf 0x2D88)) (.node 0x3B2985EF02 (.leaf 0x1297) (.leaf 0x1298))) (.node 0x3B2985FD02 (.node 0x3B2985F702 (.leaf 0x129D) (.leaf 0x129A)) (.node 0x3B29860302 (.leaf 0x129E) (.leaf 0x1299))))
def nameTree_514 : NameTree := .node 0x3B2871F302 (.node 0x3B2685F702 (.node 0x3B2684FD02 (.node 0x3B2684F302 (.leaf 0x12B8) (.node 0x3B2684F702 (.leaf 0x12BD) (.leaf 0x12BA))) (.node 0x3B2685EF02 (.node 0x3B26850302 (.leaf 0x12BE) (.leaf 0x12B9)) (.node 0x3B2685F302 (.leaf 0x2DC8) (.leaf 0x2DCD)))) (.node 0x3B2771F302 (.node 0x3B26860302 (.node 0x3B2685FD02 (.leaf 0x2DCA) (.leaf 0x2DCE)) (.node 0x3B276DEF02 (.leaf 0x2DC9) (.leaf 0x120B))) (.node 0x3B2783EF02 (.node 0x3B277BEF02 (.leaf 0x120C) (.leaf 0x2D80)) (.node 0x3B286DEF02 (.leaf 0x120F) (.leaf 0x121B))))) (nameTree_513)
def nameTree_515 : NameTree := .node 0x3B2C85F302 (.node 0x3B2C83EF02 (.node 0x3B2C750302 (.node 0x3B2C74FD02 (.leaf 0x1252) (.leaf 0x1256)) (.node 0x3B2C7BEF02 (.leaf 0x1251) (.leaf 0x1247))) (.node 0x3B2C83F702 (.node 0x3B2C83F302 (.leaf 0x1248) (.leaf 0x124D)) (.node 0x3B2C85EF02 (.leaf 0x124A) (.leaf 0x2DC0)))) (.node 0x3B2C94E8A8 (.node 0x3B2C85FD02 (.node 0x3B2C85F702 (.leaf 0x2DC5) (.leaf 0x2DC2)) (.node 0x3B2C860302 (.leaf 0x2DC6) (.leaf 0x2DC1))) (.node 0x3B2D71F302 (.node 0x3B2D6DEF02 (.leaf 0xF06) (.leaf 0x122B)) (.node 0x3B2D7BEF02 (.leaf 0x122C) (.leaf 0x2D82))))
def nameTree_516 : NameTree := .node 0x3B2C74F702 (.node 0x3B2B7BEF02 (.node 0x3B2B74F302 (.node 0x3B2B71F302 (.leaf 0x1353) (.node 0x3B2B74EF02 (.leaf 0x1354) (.leaf 0x1330))) (.node 0x3B2B74FD02 (.node 0x3B2B74F702 (.leaf 0x1335) (.leaf 0x1332)) (.node 0x3B2B750302 (.leaf 0x1336) (.leaf 0x1331)))) (.node 0x3B2C6DEF02 (.node 0x3B2B83F302 (.node 0x3B2B83EF02 (.leaf 0x2D92) (.leaf 0x1357)) (.node 0x3B2B83F702 (.leaf 0x138F) (.leaf 0x138D))) (.node 0x3B2C74EF02 (.node 0x3B2C71F302 (.leaf 0x1243) (.leaf 0x1244)) (.node 0x3B2C74F302 (.leaf 0x1250) (.leaf 0x1255))))) (nameTree_515)
def nameTree_517 : NameTree := .node 0x3B2F74EF02 (.node 0x3B2E86FD02 (.node 0x3B2E86F302 (.node 0x3B2E86EF02 (.leaf 0x1237) (.leaf 0x1220)) (.node 0x3B2E86F702 (.leaf 0x1225) (.leaf 0x1222))) (.node 0x3B2F6DEF02 (.node 0x3B2E870302 (.leaf 0x1226) (.leaf 0x1221)) (.node 0x3B2F71F302 (.leaf 0x1273) (.leaf 0x1274)))) (.node 0x3B2F750302 (.node 0x3B2F74F702 (.node 0x3B2F74F302 (.leaf 0x1320) (.leaf 0x1325)) (.node 0x3B2F74FD02 (.leaf 0x1322) (.leaf 0x1326))) (.node 0x3B2F7FEF02 (.node 0x3B2F7BEF02 (.leaf 0x1321) (.leaf 0x2D86)) (.node 0x3B2F7FF302 (.leaf 0x1338) (.leaf 0x133D))))
def nameTree_518 : NameTree := .node 0x3B2E83EF02 (.node 0x3B2E74FD02 (.node 0x3B2E71F302 (.node 0x3B2D85EF02 (.leaf 0x122F) (.node 0x3B2E6DEF02 (.leaf 0x1358) (.leaf 0x1233))) (.node 0x3B2E74F302 (.node 0x3B2E74EF02 (.leaf 0x1234) (.leaf 0x1238)) (.node 0x3B2E74F702 (.leaf 0x123D) (.leaf 0x123A)))) (.node 0x3B2E7FF302 (.node 0x3B2E7BEF02 (.node 0x3B2E750302 (.leaf 0x123E) (.leaf 0x1239)) (.node 0x3B2E7FEF02 (.leaf 0x2D83) (.leaf 0x2DA0))) (.node 0x3B2E7FFD02 (.node 0x3B2E7FF702 (.leaf 0x2DA5) (.leaf 0x2DA2)) (.node 0x3B2E800302 (.leaf 0x2DA6) (.leaf 0x2DA1))))) (nameTree_517)
def nameTree_519 : NameTree := .node 0x3B3385F302 (.node 0x3B3383EF02 (.node 0x3B3371F302 (.node 0x3B336DEF02 (.leaf 0x12CF) (.leaf 0x1283)) (.node 0x3B337BEF02 (.leaf 0x1284) (.leaf 0x1287))) (.node 0x3B3383F702 (.node 0x3B3383F302 (.leaf 0x1288) (.leaf 0x128D)) (.node 0x3B3385EF02 (.leaf 0x128A) (.leaf 0x2DD0)))) (.node 0x3B3432169A (.node 0x3B3385FD02 (.node 0x3B3385F702 (.leaf 0x2DD5) (.leaf 0x2DD2)) (.node 0x3B33860302 (.leaf 0x2DD6) (.leaf 0x2DD1))) (.node 0x3B3471F302 (.node 0x3B346DEF02 (.leaf 0x2318) (.leaf 0x12EB)) (.node 0x3B347BEF02 (.leaf 0x12EC) (.leaf 0x12EF))))
def nameTree_520 : NameTree := .node 0x3B327BEF02 (.node 0x3B2F86FD02 (.node 0x3B2F83EF02 (.node 0x3B2F7FFD02 (.leaf 0x133A) (.node 0x3B2F800302 (.leaf 0x133E) (.leaf 0x1339))) (.node 0x3B2F86F302 (.node 0x3B2F86EF02 (.leaf 0x1277) (.leaf 0x1340)) (.node 0x3B2F86F702 (.leaf 0x1345) (.leaf 0x1342)))) (.node 0x3B3171F302 (.node 0x3B3087E482 (.node 0x3B2F870302 (.leaf 0x1346) (.leaf 0x1341)) (.node 0x3B316DEF02 (.leaf 0x2607) (.leaf 0x126B))) (.node 0x3B326DEF02 (.node 0x3B3183EF02 (.leaf 0x126C) (.leaf 0x126F)) (.node 0x3B3271F302 (.leaf 0x12CB) (.leaf 0x12CC))))) (nameTree_519)
def nameTree_521 : NameTree := .node 0x38B19A24A9 (.node 0x35FEC78CEB (.node 0x34AC84817E (.node 0x340FD560F2 (.node 0x33C64BF78C (nameTree_464) (nameTree_466)) (.node 0x346DE9F493 (nameTree_468) (nameTree_470))) (.node 0x356430FB7F (.node 0x34F9506BEA (nameTree_471) (nameTree_473)) (.node 0x35A0911CA9 (nameTree_475) (nameTree_477)))) (.node 0x37981627D3 (.node 0x36A393C6DC (.node 0x363E1164A2 (nameTree_478) (nameTree_480)) (.node 0x3726A1C7FA (nameTree_482) (nameTree_484))) (.node 0x383BCDB826 (.node 0x37E7440D7A (nameTree_485) (nameTree_487)) (.node 0x38947777D4 (nameTree_489) (nameTree_491))))) (.node 0x3A7F1E2587 (.node 0x39A99D1CA9 (.node 0x395231506E (.node 0x38EF876899 (nameTree_492) (nameTree_494)) (.node 0x39A8891CA9 (nameTree_496) (nameTree_498))) (.node 0x3A17FDEC78 (.node 0x39B48D1CA9 (nameTree_499) (nameTree_501)) (.node 0x3A64FF09E0 (nameTree_503) (nameTree_505)))) (.node 0x3B2684EF02 (.node 0x3B1E71F302 (.node 0x3AEF9BF728 (nameTree_506) (nameTree_508)) (.node 0x3B2273F302 (nameTree_510) (nameTree_512))) (.node 0x3B2D83EF02 (.node 0x3B2B6DEF02 (nameTree_514) (nameTree_516)) (.node 0x3B2F7FF702 (nameTree_518) (nameTree_520)))))
def nameTree_522 : NameTree := .node 0x3B37193C4B (.node 0x3B357BEF02 (.node 0x3B3574F302 (.node 0x3B3571F302 (.leaf 0x12DB) (.node 0x3B3574EF02 (.leaf 0x12DC) (.leaf 0x12E0))) (.node 0x3B3574FD02 (.node 0x3B3574F702 (.leaf 0x12E5) (.leaf 0x12E2)) (.node 0x3B35750302 (.leaf 0x12E6) (.leaf 0x12E1)))) (.node 0x3B3586F702 (.node 0x3B3586EF02 (.node 0x3B3583EF02 (.leaf 0x2D8B) (.leaf 0x12DF)) (.node 0x3B3586F302 (.leaf 0x2DB0) (.leaf 0x2DB5))) (.node 0x3B35870302 (.node 0x3B3586FD02 (.leaf 0x2DB2) (.leaf 0x2DB6)) (.node 0x3B3696E5A2 (.leaf 0x2DB1) (.leaf 0x2423))))) (.node 0x3B444FCD41 (.node 0x3B3B465BD1 (.node 0x3B378CB122 (.leaf 0x1D8BB) (.node 0x3B3A7E1607 (.leaf 0x326) (.leaf 0x2E49))) (.node 0x3B3CEBDE0B (.node 0x3B3B981CF5 (.leaf 0x1CDB) (.leaf 0x1F434)) (.node 0x3B435B081F (.leaf 0xAA57) (.leaf 0x120ED)))) (.node 0x3B4C33BA55 (.node 0x3B49627BB1 (.node 0x3B46B54DFC (.leaf 0x12105) (.leaf 0x1D945)) (.node 0x3B4BACA4E8 (.leaf 0xA9A8) (.leaf 0x1F4E0))) (.node 0x3B4F049A18 (.node 0x3B4F00A918 (.leaf 0x1F33E) (.leaf 0x2F9E)) (.node 0x3B5364727D (.leaf 0x2F73) (.leaf 0x1D839)))))
def nameTree_523 : NameTree := .node 0x3B82944591 (.node 0x3B7AE162F1 (.node 0x3B749B8591 (.node 0x3B72949C91 (.leaf 0x25A0) (.leaf 0x1008C)) (.node 0x3B7A50FE35 (.leaf 0x10086) (.leaf 0x659))) (.node 0x3B80A4684A (.node 0x3B7E5E2474 (.leaf 0x22A2) (.leaf 0x1FA0)) (.node 0x3B81858FF2 (.leaf 0x2388) (.leaf 0x10087)))) (.node 0x3B90135BCE (.node 0x3B85E73ABC (.node 0x3B82B87AA8 (.leaf 0x1008A) (.leaf 0x1231A)) (.node 0x3B8828A919 (.leaf 0x3331) (.leaf 0x2A5C))) (.node 0x3B952555C9 (.node 0x3B92636751 (.leaf 0xFCD4) (.leaf 0x2AA6)) (.node 0x3B9B1F91AF (.leaf 0x189F) (.leaf 0x1D8E9))))
def nameTree_524 : NameTree := .node 0x3B717F2B49 (.node 0x3B61083B2B (.node 0x3B59EFAC18 (.node 0x3B57C2224B (.leaf 0x2FA2) (.node 0x3B59EFA318 (.leaf 0x12450) (.leaf 0x2F52))) (.node 0x3B5C2263A4 (.node 0x3B5A27CFA5 (.leaf 0x2F56) (.leaf 0x61E)) (.node 0x3B5D4FBF5F (.leaf 0x2424) (.leaf 0xE20)))) (.node 0x3B6AFF6590 (.node 0x3B6AFF5D90 (.node 0x3B6462FD6F (.leaf 0x2AD9) (.leaf 0x542)) (.node 0x3B6AFF6190 (.leaf 0x11005) (.leaf 0x1100F))) (.node 0x3B6AFF7190 (.node 0x3B6AFF6B90 (.leaf 0x11007) (.leaf 0x11011)) (.node 0x3B6BC6454B (.leaf 0x11009) (.leaf 0x12435))))) (nameTree_523)
def nameTree_525 : NameTree := .node 0x3BAD78F006 (.node 0x3BA6A11CA9 (.node 0x3BA69D20A9 (.node 0x3BA69D1EA9 (.leaf 0xA42A) (.leaf 0xA42C)) (.node 0x3BA69D24A9 (.leaf 0xA427) (.leaf 0xA428))) (.node 0x3BA6A124A9 (.node 0x3BA6A120A9 (.leaf 0xA430) (.leaf 0xA42D)) (.node 0x3BAC28AA85 (.leaf 0xA42E) (.leaf 0x1D8AF)))) (.node 0x3BB1971CA9 (.node 0x3BB002346A (.node 0x3BAF5AB35F (.leaf 0x2C07) (.leaf 0x778)) (.node 0x3BB0286651 (.leaf 0x1D96A) (.leaf 0x1BFD))) (.node 0x3BB19724A9 (.node 0x3BB19720A9 (.leaf 0xA3EB) (.leaf 0xA3E8)) (.node 0x3BB19A24A9 (.leaf 0xA3E9) (.leaf 0xA3F4))))
def nameTree_526 : NameTree := .node 0x3BA69D1CA9 (.node 0x3BA69111A9 (.node 0x3BA58D1CA9 (.node 0x3BA0627BB1 (.leaf 0x740) (.node 0x3BA3F21885 (.leaf 0xA996) (.leaf 0x1F002))) (.node 0x3BA58D24A9 (.node 0x3BA58D20A9 (.leaf 0xA3E7) (.leaf 0xA3E4)) (.node 0x3BA5D931E6 (.leaf 0xA3E5) (.leaf 0x11AEF)))) (.node 0x3BA6971CA9 (.node 0x3BA69120A9 (.node 0x3BA6911CA9 (.leaf 0xA41E) (.leaf 0xA41B)) (.node 0x3BA69124A9 (.leaf 0xA418) (.leaf 0xA419))) (.node 0x3BA69724A9 (.node 0x3BA69720A9 (.leaf 0xA426) (.leaf 0xA423)) (.node 0x3BA69D1BA9 (.leaf 0xA424) (.leaf 0xA421))))) (nameTree_525)
def nameTree_527 : NameTree := .node 0x3BEB63F365 (.node 0x3BE3ECEE7B (.node 0x3BDE96956A (.node 0x3BDB70C3EA (.leaf 0x10493) (.leaf 0x16F8)) (.node 0x3BE3D8EE7B (.leaf 0x1221E) (.leaf 0x1B7A))) (.node 0x3BEA2A543A (.node 0x3BEA1A234C (.leaf 0x1B7B) (.leaf 0xFD66)) (.node 0x3BEAF1B061 (.leaf 0x2E0) (.leaf 0x582)))) (.node 0x3BEC3242AF (.node 0x3BEB6C0A1D (.node 0x3BEB6AF5C6 (.leaf 0xE1D) (.leaf 0xE21)) (.node 0x3BEB7105D0 (.leaf 0xE19) (.leaf 0xE0B))) (.node 0x3BF9DA60FD (.node 0x3BF5C33A5D (.leaf 0xFC6E) (.leaf 0x2A51)) (.node 0x3C021E1CDF (.leaf 0x1D902) (.leaf 0x1F66E))))
def nameTree_528 : NameTree := .node 0x3BDAB87028 (.node 0x3BC12E85B8 (.node 0x3BB9D1010A (.node 0x3BB59A24A9 (.leaf 0x2BD) (.node 0x3BB98D5900 (.leaf 0xA3FA) (.leaf 0x116B7))) (.node 0x3BBDD626D4 (.node 0x3BBBBFA140 (.leaf 0x1B1F) (.leaf 0x115D4)) (.node 0x3BC044EA8C (.leaf 0x1F58E) (.leaf 0xF29)))) (.node 0x3BD0193504 (.node 0x3BC7BF5A28 (.node 0x3BC1AEC723 (.leaf 0x136) (.leaf 0x1D150)) (.node 0x3BCEBF5A28 (.leaf 0x1048A) (.leaf 0x10485))) (.node 0x3BD537A699 (.node 0x3BD4962636 (.leaf 0x2F68) (.leaf 0x1D7C8)) (.node 0x3BD5E75460 (.leaf 0x763) (.leaf 0x6B8))))) (nameTree_527)
def nameTree_529 : NameTree := .node 0x3C3BF6BC19 (.node 0x3C2C6BAA9E (.node 0x3C1BB8B3FB (.node 0x3C096FFED7 (.leaf 0x27F7) (.node 0x3C1AC50EC7 (.leaf 0x1F706) (.leaf 0x15C))) (.node 0x3C24A52A6D (.node 0x3C217114B5 (.leaf 0x1226A) (.leaf 0xA8F8)) (.node 0x3C2C66BE9E (.leaf 0x1145) (.leaf 0xFF6F)))) (.node 0x3C2FB166CB (.node 0x3C2C6BBE9E (.node 0x3C2C6BB89E (.leaf 0xFF6C) (.leaf 0xFF6E)) (.node 0x3C2CB966CB (.leaf 0xFF6D) (.leaf 0x101DC))) (.node 0x3C34B5AF98 (.node 0x3C335F9F6B (.leaf 0x101E4) (.leaf 0x1F5E8)) (.node 0x3C3BF09281 (.leaf 0x1DA0C) (.leaf 0x1D104))))) (.node 0x3C525C0EF8 (.node 0x3C4098B0CA (.node 0x3C4064E59A (.leaf 0x10182) (.node 0x3C406DE3E7 (.leaf 0x1D706) (.leaf 0x1D6FE))) (.node 0x3C4C4B0FEC (.node 0x3C4370E543 (.leaf 0x1F42D) (.leaf 0x1D705)) (.node 0x3C4C74E8C0 (.leaf 0x1D86A) (.leaf 0x2A02)))) (.node 0x3C57019D18 (.node 0x3C52F3A718 (.node 0x3C52F1CDCA (.leaf 0x2ABA) (.leaf 0x1F5FB)) (.node 0x3C53D159A9 (.leaf 0x2FC5) (.leaf 0x27DB))) (.node 0x3C5CEE2192 (.node 0x3C5867FFE9 (.leaf 0x2F6B) (.leaf 0x77F)) (.node 0x3C5CFDA718 (.leaf 0x1736) (.leaf 0x2F3E)))))
def nameTree_530 : NameTree := .node 0x3CB19724A9 (.node 0x3CB007CF75 (.node 0x3CB007CC75 (.node 0x3CA58D24A9 (.leaf 0xA1FE) (.leaf 0xA1FC)) (.node 0x3CB007CD75 (.leaf 0x1087) (.leaf 0x1088))) (.node 0x3CB10FD26C (.node 0x3CB007D075 (.leaf 0x1089) (.leaf 0x108A)) (.node 0x3CB1971CA9 (.leaf 0x1F3A5) (.leaf 0xA205)))) (.node 0x3CB2FF43E2 (.node 0x3CB2298A04 (.node 0x3CB19A24A9 (.leaf 0xA203) (.leaf 0xA212)) (.node 0x3CB2953E50 (.leaf 0x122A7) (.leaf 0x2F2))) (.node 0x3CC04F10CF (.node 0x3CB793303E (.leaf 0x12532) (.leaf 0x1DA51)) (.node 0x3CC1030A70 (.leaf 0x1D060) (.leaf 0xA49B))))
def nameTree_531 : NameTree := .node 0x3CA58D1CA9 (.node 0x3C6E506893 (.node 0x3C64A984EF (.node 0x3C616C6EA2 (.leaf 0x2FCE) (.node 0x3C62017DEF (.leaf 0x2B72) (.leaf 0x1D9D))) (.node 0x3C6C37ADF1 (.node 0x3C67CD6652 (.leaf 0x1DBD) (.leaf 0x109CC)) (.node 0x3C6DA83F6E (.leaf 0x21AC) (.leaf 0x2C22)))) (.node 0x3C8DE6E365 (.node 0x3C80606DEF (.node 0x3C7EB5ECDD (.leaf 0x2262) (.leaf 0x1A7B)) (.node 0x3C893DC835 (.leaf 0x1FEC) (.leaf 0xBF1))) (.node 0x3C9F548245 (.node 0x3C93EFB377 (.leaf 0x12321) (.leaf 0x1D1B6)) (.node 0x3CA17DE466 (.leaf 0xCF2) (.leaf 0x1680A))))) (nameTree_530)
def nameTree_532 : NameTree := .node 0x3CE7573EA9 (.node 0x3CE58AE00D (.node 0x3CE581E80D (.node 0x3CE581E40D (.leaf 0x15BB) (.leaf 0x15B8)) (.node 0x3CE581EE0D (.leaf 0x15B9) (.leaf 0x15BA))) (.node 0x3CE58AE80D (.node 0x3CE58AE40D (.leaf 0x15B7) (.leaf 0x15B4)) (.node 0x3CE58AEE0D (.leaf 0x15B5) (.leaf 0x15B6)))) (.node 0x3CEF6F44E4 (.node 0x3CEB35834B (.node 0x3CE84F7B1C (.leaf 0x2755) (.leaf 0x2212)) (.node 0x3CEE56E6FD (.leaf 0x1F68B) (.leaf 0x27CD))) (.node 0x3CF631AA71 (.node 0x3CF090C4A5 (.leaf 0x1E50) (.leaf 0x1A15)) (.node 0x3CFB3AB471 (.leaf 0x180B) (.leaf 0x180C))))
def nameTree_533 : NameTree := .node 0x3CE581E00D (.node 0x3CD5F6E0F5 (.node 0x3CCF3B3122 (.node 0x3CC384289B (.leaf 0x1F607) (.node 0x3CC8262A1E (.leaf 0xAB39) (.leaf 0xFFFD))) (.node 0x3CD1B0623F (.node 0x3CCF63F07F (.leaf 0x1D972) (.leaf 0x1F692)) (.node 0x3CD475BEAC (.leaf 0x12303) (.leaf 0x1DA70)))) (.node 0x3CE57EE00D (.node 0x3CDFFE22D0 (.node 0x3CDA4CA54B (.leaf 0xFC60) (.leaf 0x1010F)) (.node 0x3CE3BA29E0 (.leaf 0x1F823) (.leaf 0x291B))) (.node 0x3CE57EE80D (.node 0x3CE57EE40D (.leaf 0x15BF) (.leaf 0x15BC)) (.node 0x3CE57EEE0D (.leaf 0x15BD) (.leaf 0x15BE))))) (nameTree_532)
def nameTree_534 : NameTree := .node 0x3D2EF925D9 (.node 0x3D247F4038 (.node 0x3D1FF11B15 (.node 0x3D1F4D1B15 (.leaf 0x3272) (.leaf 0x3271)) (.node 0x3D229F1B15 (.leaf 0x326F) (.leaf 0x3273))) (.node 0x3D290C73A3 (.node 0x3D277DF21C (.leaf 0x1F884) (.leaf 0x11C64)) (.node 0x3D2B173958 (.leaf 0x11D57) (.leaf 0x2592)))) (.node 0x3D3AFA5AF6 (.node 0x3D314FBDE9 (.node 0x3D2FBA69CB (.leaf 0x1F648) (.leaf 0x101EF)) (.node 0x3D399BCEC3 (.leaf 0xA9C5) (.leaf 0x12069))) (.node 0x3D4FC43ADA (.node 0x3D4403BDD1 (.leaf 0x1F821) (.leaf 0x1F463)) (.node 0x3D54C742AC (.leaf 0x10137) (.leaf 0x10C09))))
def nameTree_535 : NameTree := .node 0x3D1E9A1B15 (.node 0x3D10898ACE (.node 0x3D029FAF74 (.node 0x3CFE17C672 (.leaf 0xA993) (.node 0x3D0198018D (.leaf 0x902) (.leaf 0x4B3))) (.node 0x3D06148D0E (.node 0x3D0408474B (.leaf 0x328D) (.leaf 0x1240B)) (.node 0x3D0697C139 (.leaf 0x1246D) (.leaf 0x12535)))) (.node 0x3D17E71B15 (.node 0x3D11341B15 (.node 0x3D10F06998 (.leaf 0x2F16) (.leaf 0x2B93)) (.node 0x3D1385E354 (.leaf 0x3276) (.leaf 0xFDF3))) (.node 0x3D19FC1CD2 (.node 0x3D18FCE782 (.leaf 0x327B) (.leaf 0x1F3B5)) (.node 0x3D1DCE1CB0 (.leaf 0x2277) (.leaf 0x1DA49))))) (nameTree_534)
def nameTree_536 : NameTree := .node 0x3D54D545AC (.node 0x3D54C754AC (.node 0x3D54C74EAC (.node 0x3D54C747AC (.leaf 0x10C11) (.node 0x3D54C74CAC (.leaf 0x10C0D) (.leaf 0x10C1E))) (.node 0x3D54C752AC (.node 0x3D54C751AC (.leaf 0x10C23) (.leaf 0x10C34)) (.node 0x3D54C753AC (.leaf 0x10C3A) (.leaf 0x10C3D)))) (.node 0x3D54CB50AC (.node 0x3D54CB43AC (.node 0x3D54C759AC (.leaf 0x10C43) (.leaf 0x10C16)) (.node 0x3D54CB4DAC (.leaf 0x10C32) (.leaf 0x10C22))) (.node 0x3D54CF43AC (.node 0x3D54CB5AAC (.leaf 0x10C2F) (.leaf 0x10C14)) (.node 0x3D54CF51AC (.leaf 0x10C31) (.leaf 0x10C36))))) (.node 0x3D63F3A318 (.node 0x3D54D554AC (.node 0x3D54D550AC (.leaf 0x10C07) (.node 0x3D54D551AC (.leaf 0x10C30) (.leaf 0x10C38))) (.node 0x3D5A3DFD70 (.node 0x3D552094EE (.leaf 0x10C47) (.leaf 0x1D9B2)) (.node 0x3D5B4D11EC (.leaf 0x2228) (.leaf 0x294C)))) (.node 0x3D647347A6 (.node 0x3D647344A6 (.node 0x3D647343A6 (.leaf 0x2FD1) (.leaf 0x1D504)) (.node 0x3D647346A6 (.leaf 0x1D505) (.leaf 0x1D507))) (.node 0x3D647349A6 (.node 0x3D647348A6 (.leaf 0x1D508) (.leaf 0x1D509)) (.node 0x3D64734CA6 (.leaf 0x1D50A) (.leaf 0x1D50D)))))
def nameTree_537 : NameTree := .node 0x3D820B1742 (.node 0x3D77E71F3F (.node 0x3D6CCC8DCE (.node 0x3D68897A6D (.leaf 0x1DF9) (.leaf 0x168AE)) (.node 0x3D6EB5E314 (.leaf 0x136B) (.leaf 0x1E9A))) (.node 0x3D7C3E30D6 (.node 0x3D79CF2060 (.leaf 0x2248) (.leaf 0x1D066)) (.node 0x3D81E82EBC (.leaf 0x20BE) (.leaf 0x3325)))) (.node 0x3D880511DD (.node 0x3D8470639B (.node 0x3D82278238 (.leaf 0x22F1) (.leaf 0x2605)) (.node 0x3D858F899A (.leaf 0x29D3) (.leaf 0x16EB))) (.node 0x3D920E2E98 (.node 0x3D8BE73ABC (.leaf 0xB6) (.leaf 0x3326)) (.node 0x3D941529B7 (.leaf 0x1F94A) (.leaf 0xFEF8))))
def nameTree_538 : NameTree := .node 0x3D66433E57 (.node 0x3D647355A6 (.node 0x3D647350A6 (.node 0x3D64734EA6 (.leaf 0x1D50E) (.node 0x3D64734FA6 (.leaf 0x1D50F) (.leaf 0x1D510))) (.node 0x3D647352A6 (.node 0x3D647351A6 (.leaf 0x1D511) (.leaf 0x1D512)) (.node 0x3D647353A6 (.leaf 0x1D513) (.leaf 0x1D514)))) (.node 0x3D647359A6 (.node 0x3D647357A6 (.node 0x3D647356A6 (.leaf 0x1D516) (.leaf 0x1D517)) (.node 0x3D647358A6 (.leaf 0x1D518) (.leaf 0x1D519))) (.node 0x3D64735BA6 (.node 0x3D64735AA6 (.leaf 0x1D51A) (.leaf 0x1D51B)) (.node 0x3D6632137B (.leaf 0x1D51C) (.leaf 0x1509))))) (nameTree_537)
def nameTree_539 : NameTree := .node 0x3DBE7FCC37 (.node 0x3DB19724A9 (.node 0x3DB1971CA9 (.node 0x3DA992E0F8 (.leaf 0x3188) (.leaf 0x318A)) (.node 0x3DB19720A9 (.leaf 0xA1C6) (.leaf 0xA1C3))) (.node 0x3DB59A24A9 (.node 0x3DB19A24A9 (.leaf 0xA1C4) (.leaf 0xA1D2)) (.node 0x3DBB89C637 (.leaf 0xA1D8) (.leaf 0x16B35)))) (.node 0x3DCEF60578 (.node 0x3DC78FBB37 (.node 0x3DC2FD595B (.leaf 0x16B32) (.leaf 0x1FF4)) (.node 0x3DCEE5762C (.leaf 0x16B30) (.leaf 0x118BD))) (.node 0x3DDA6F88E3 (.node 0x3DD3FD0670 (.leaf 0x120AA) (.leaf 0xA4BD)) (.node 0x3DDC97C2B9 (.leaf 0x1D6B9) (.leaf 0x2E22))))
def nameTree_540 : NameTree := .node 0x3DA98ED4EE (.node 0x3D977B437F (.node 0x3D955EAE33 (.node 0x3D955AB233 (.leaf 0xA3E) (.node 0x3D955ABE33 (.leaf 0xA48) (.leaf 0xA4C))) (.node 0x3D9568B833 (.node 0x3D9562B233 (.leaf 0xA47) (.leaf 0xA40)) (.node 0x3D956EBE33 (.leaf 0xA4B) (.leaf 0xA42)))) (.node 0x3DA58D1CA9 (.node 0x3D9A683422 (.node 0x3D98C3193D (.leaf 0x1F7C9) (.leaf 0x232A)) (.node 0x3DA187483C (.leaf 0x756) (.leaf 0x1D24))) (.node 0x3DA58D24A9 (.node 0x3DA58D20A9 (.leaf 0xA1BE) (.leaf 0xA1BB)) (.node 0x3DA7D97C50 (.leaf 0xA1BC) (.leaf 0xAAF3))))) (nameTree_539)
def nameTree_541 : NameTree := .node 0x3E1D3CF870 (.node 0x3E09C25312 (.node 0x3E08FDF7EC (.node 0x3E071DDE45 (.leaf 0xE07) (.leaf 0x2795)) (.node 0x3E0907F1EC (.leaf 0xE49) (.leaf 0xE4A))) (.node 0x3E16180AB4 (.node 0x3E0D08B913 (.leaf 0x3182) (.leaf 0x108E0)) (.node 0x3E1A9E8400 (.leaf 0x9F7) (.leaf 0x1F9D4)))) (.node 0x3E2AABCA7E (.node 0x3E241B73F8 (.node 0x3E2005E3C5 (.leaf 0x1F92D) (.leaf 0x4DA)) (.node 0x3E25CF64E8 (.leaf 0x1DA88) (.leaf 0x1F824))) (.node 0x3E2B184FFE (.node 0x3E2B174FFE (.leaf 0x11C6) (.leaf 0x1D707)) (.node 0x3E2B1A43FE (.leaf 0x1D708) (.leaf 0x1D70B))))
def nameTree_542 : NameTree := .node 0x3E035609F6 (.node 0x3DECD8A0DA (.node 0x3DE753A9C7 (.node 0x3DE534584E (.leaf 0x1B8) (.node 0x3DE57871F8 (.leaf 0x1D4A) (.leaf 0x1F522))) (.node 0x3DEBD6167F (.node 0x3DEB4EBCC7 (.leaf 0xC67) (.leaf 0xC6C)) (.node 0x3DEC5CB3C7 (.leaf 0x1203A) (.leaf 0xC68)))) (.node 0x3DF2EFCA7E (.node 0x3DF126CDF8 (.node 0x3DEDB1707B (.leaf 0x1DA53) (.leaf 0x2EBA)) (.node 0x3DF2BA7A7B (.leaf 0x1F523) (.leaf 0x2EBB))) (.node 0x3DFF214F09 (.node 0x3DFD9CA741 (.leaf 0x11CE) (.leaf 0x101)) (.node 0x3DFF94A056 (.leaf 0x1F4D1) (.leaf 0xFF06))))) (nameTree_541)
def nameTree_543 : NameTree := .node 0x3E390B94A6 (.node 0x3E38F89AA6 (.node 0x3E34FF85A6 (.node 0x3E2F236B11 (.leaf 0x1D709) (.node 0x3E34FE83A6 (.leaf 0x21E6) (.leaf 0x10C83))) (.node 0x3E38F489A6 (.node 0x3E38EBD562 (.leaf 0x10C88) (.leaf 0xAA53)) (.node 0x3E38F494A6 (.leaf 0x10CA9) (.leaf 0x10C86)))) (.node 0x3E38FF95A6 (.node 0x3E38FE91A6 (.node 0x3E38FD9AA6 (.leaf 0x10C8E) (.leaf 0x10C97)) (.node 0x3E38FF84A6 (.leaf 0x10CA1) (.leaf 0x10C85))) (.node 0x3E39049BA6 (.node 0x3E38FF9AA6 (.leaf 0x10CA7) (.leaf 0x10C9A)) (.node 0x3E39059AA6 (.leaf 0x10CA5) (.leaf 0x10CA8))))) (.node 0x3E4EFC9C18 (.node 0x3E42F686A6 (.node 0x3E3B2CA422 (.leaf 0x10CB0) (.node 0x3E420EB37A (.leaf 0x692) (.leaf 0x1041C))) (.node 0x3E48FF8CA6 (.node 0x3E43DA4F0E (.leaf 0x10C9F) (.leaf 0x2E1C)) (.node 0x3E4EF19A18 (.leaf 0x10C95) (.leaf 0x2FAF)))) (.node 0x3E57019D18 (.node 0x3E53C78988 (.node 0x3E50F5FC74 (.leaf 0x2F5B) (.leaf 0xFD1C)) (.node 0x3E57009A18 (.leaf 0x2ED) (.leaf 0x2F55))) (.node 0x3E5CFDA918 (.node 0x3E58627BB1 (.leaf 0x2FC2) (.leaf 0xA991)) (.node 0x3E5FFD9C18 (.leaf 0x2F9C) (.leaf 0x2FCC)))))
def nameTree_544 : NameTree := .node 0x3E7967C60C (.node 0x3E7466C60C (.node 0x3E7214F254 (.node 0x3E7167C60C (.leaf 0x2C4D) (.leaf 0x11316)) (.node 0x3E726BC60C (.leaf 0x1EA3) (.leaf 0x11333))) (.node 0x3E7478C60C (.node 0x3E746DC60C (.leaf 0x11319) (.leaf 0x11323)) (.node 0x3E7667C60C (.leaf 0x1131E) (.leaf 0x1132B)))) (.node 0x3E7ABB7BA5 (.node 0x3E7A67C60C (.node 0x3E7972C60C (.leaf 0x11336) (.leaf 0x11337)) (.node 0x3E7A73C60C (.leaf 0x11325) (.leaf 0x1131F))) (.node 0x3E7B684992 (.node 0x3E7B401876 (.leaf 0xFD59) (.leaf 0xFCD3)) (.node 0x3E7F54033C (.leaf 0xFCD6) (.leaf 0x2060))))
def nameTree_545 : NameTree := .node 0x3E70EA9EC9 (.node 0x3E6967C60C (.node 0x3E6467016F (.node 0x3E61AA2285 (.leaf 0x11A24) (.node 0x3E61CF97B5 (.leaf 0x11A15) (.leaf 0x1370))) (.node 0x3E6867C60C (.node 0x3E678745BF (.leaf 0x54B) (.leaf 0xFCA9)) (.node 0x3E691343F2 (.leaf 0x1132D) (.leaf 0x1D2B)))) (.node 0x3E6E3F9EE5 (.node 0x3E6A67C60C (.node 0x3E6A63C60C (.leaf 0x1131B) (.leaf 0x11321)) (.node 0x3E6D67C60C (.leaf 0x11327) (.leaf 0x11318))) (.node 0x3E7067C60C (.node 0x3E6F58563E (.leaf 0x1F5BC) (.leaf 0x1152)) (.node 0x3E70DE708B (.leaf 0x1131D) (.leaf 0x2C45))))) (nameTree_544)
def nameTree_546 : NameTree := .node 0x3EA58D24A9 (.node 0x3EA39D20A9 (.node 0x3EA39D1CA9 (.node 0x3EA39D1BA9 (.leaf 0xA23A) (.leaf 0xA237)) (.node 0x3EA39D1EA9 (.leaf 0xA243) (.leaf 0xA245))) (.node 0x3EA42C1895 (.node 0x3EA39D24A9 (.leaf 0xA240) (.leaf 0xA241)) (.node 0x3EA58D1CA9 (.leaf 0x1E77) (.leaf 0xA0B4)))) (.node 0x3EA98C7C7A (.node 0x3EA87E857A (.node 0x3EA80BE896 (.leaf 0xA0B2) (.leaf 0xC56)) (.node 0x3EA983FBEF (.leaf 0x184) (.leaf 0xFC45))) (.node 0x3EB19720A9 (.node 0x3EB1971CA9 (.leaf 0x1A7) (.leaf 0xA0BC)) (.node 0x3EB19724A9 (.leaf 0xA0B9) (.leaf 0xA0BA))))
def nameTree_547 : NameTree := .node 0x3EA39724A9 (.node 0x3EA3891CA9 (.node 0x3E92549CD5 (.node 0x3E81829522 (.leaf 0x1428) (.node 0x3E8758317A (.leaf 0x6CE) (.leaf 0x1F49B))) (.node 0x3E9CE4FE52 (.node 0x3E9BACA7D8 (.leaf 0x1F3D4) (.leaf 0x1F3B6)) (.node 0x3EA04E6496 (.leaf 0x2B04) (.leaf 0x1364)))) (.node 0x3EA38D24A9 (.node 0x3EA38924A9 (.node 0x3EA38920A9 (.leaf 0xA235) (.leaf 0xA232)) (.node 0x3EA38D1CA9 (.leaf 0xA233) (.leaf 0xA23F))) (.node 0x3EA3971CA9 (.node 0x3EA39111A9 (.leaf 0xA23D) (.leaf 0xA231)) (.node 0x3EA39720A9 (.leaf 0xA23C) (.leaf 0xA239))))) (nameTree_546)
def nameTree_548 : NameTree := .node 0x3F16A8C7CE (.node 0x3EFCC3CB34 (.node 0x3EEAB928CC (.node 0x3EE33C4759 (.leaf 0x2600) (.leaf 0x2ADD)) (.node 0x3EFC9B9A18 (.leaf 0x1D9FD) (.leaf 0xFCCA))) (.node 0x3F1315A1E8 (.node 0x3EFD46C145 (.leaf 0xFCCD) (.leaf 0x11046)) (.node 0x3F13CDCA7E (.leaf 0x1F7A1) (.leaf 0xD7E3)))) (.node 0x3F21C94B53 (.node 0x3F1FCD47A0 (.node 0x3F1CFD8411 (.leaf 0x2A9D) (.leaf 0x2671)) (.node 0x3F2178D45A (.leaf 0x1F959) (.leaf 0x11C6A))) (.node 0x3F28E71175 (.node 0x3F2357651A (.leaf 0x1D0B5) (.leaf 0x1F46C)) (.node 0x3F28E71575 (.leaf 0x11A04) (.leaf 0x11A01))))
def nameTree_549 : NameTree := .node 0x3EE13B969B (.node 0x3ECC62351A (.node 0x3EB21A563C (.node 0x3EB213563C (.leaf 0xA0C7) (.node 0x3EB218563C (.leaf 0xA871) (.leaf 0xA867))) (.node 0x3EC3030870 (.node 0x3EB6AA590C (.leaf 0xA868) (.leaf 0x230)) (.node 0x3EC6A65755 (.leaf 0xA4A4) (.leaf 0x1F7B3)))) (.node 0x3ED2DEE74E (.node 0x3ED0659EFB (.node 0x3ECD072782 (.leaf 0x27D7) (.leaf 0x4C0)) (.node 0x3ED230B8F0 (.leaf 0x1DA9) (.leaf 0x63C))) (.node 0x3EDC8269B1 (.node 0x3ED7726E64 (.leaf 0x1DCB) (.leaf 0x2FF)) (.node 0x3EDEB56BB1 (.leaf 0x16AA) (.leaf 0x16AB))))) (nameTree_548)
def nameTree_550 : NameTree := .node 0x3F536397DE (.node 0x3F3BD89576 (.node 0x3F2CB354CA (.node 0x3F28E72175 (.leaf 0x11A06) (.node 0x3F2BE31424 (.leaf 0x11A03) (.leaf 0x2547))) (.node 0x3F2DEEDF49 (.node 0x3F2DA2B13C (.leaf 0x5B2) (.leaf 0x1D8C3)) (.node 0x3F333A4618 (.leaf 0xAA58) (.leaf 0x316)))) (.node 0x3F4643E928 (.node 0x3F463BD928 (.node 0x3F440F1C05 (.leaf 0x2FD) (.leaf 0x1EE9B)) (.node 0x3F463FDE28 (.leaf 0x16F7) (.leaf 0x16F6))) (.node 0x3F480B2019 (.node 0x3F4649E928 (.leaf 0x16F5) (.leaf 0x16F4)) (.node 0x3F4F029A18 (.leaf 0x1EE94) (.leaf 0x2FA8))))) (.node 0x3F5CC36717 (.node 0x3F554363B8 (.node 0x3F54148898 (.leaf 0x17DD) (.node 0x3F553F83C6 (.leaf 0x1B51) (.leaf 0x1D9F9))) (.node 0x3F580F9B98 (.node 0x3F572F56A3 (.leaf 0x300) (.leaf 0x1EA8)) (.node 0x3F591D9298 (.leaf 0x1B56) (.leaf 0x1B52)))) (.node 0x3F5D627BB1 (.node 0x3F5CFA9918 (.node 0x3F5CD833D7 (.leaf 0xE12) (.leaf 0x2BCA)) (.node 0x3F5CFFD29F (.leaf 0x2FA6) (.leaf 0xFE3C))) (.node 0x3F66B3710A (.node 0x3F5E090AE0 (.leaf 0xA99F) (.leaf 0x1F37E)) (.node 0x3F73BA08CD (.leaf 0x1DC5) (.leaf 0x23A6)))))
def nameTree_551 : NameTree := .node 0x3F9E8920A9 (.node 0x3F959026D7 (.node 0x3F91167461 (.node 0x3F91107561 (.leaf 0x1F22A) (.leaf 0x1F22D)) (.node 0x3F911F6561 (.leaf 0x1F214) (.leaf 0x1F218))) (.node 0x3F9B8F33D7 (.node 0x3F9675EA17 (.leaf 0x10E64) (.leaf 0x1E006)) (.node 0x3F9E891CA9 (.leaf 0x10E63) (.leaf 0xA080)))) (.node 0x3F9E9120A9 (.node 0x3F9E9111A9 (.node 0x3F9E8924A9 (.leaf 0xA07D) (.leaf 0xA07E)) (.node 0x3F9E911CA9 (.leaf 0xA07B) (.leaf 0xA079))) (.node 0x3F9E971CA9 (.node 0x3F9E9124A9 (.leaf 0xA076) (.leaf 0xA077)) (.node 0x3F9E9720A9 (.leaf 0xA084) (.leaf 0xA081))))
def nameTree_552 : NameTree := .node 0x3F910E6A61 (.node 0x3F869CC2B0 (.node 0x3F83613C25 (.node 0x3F7A2868DF (.leaf 0x703) (.node 0x3F7FDE69DC (.leaf 0x320) (.leaf 0x11EE))) (.node 0x3F837AAF1F (.node 0x3F837A9F1F (.leaf 0x276F) (.leaf 0x17B5)) (.node 0x3F8413EFFC (.leaf 0x17B4) (.leaf 0x1E94A)))) (.node 0x3F8BE439BC (.node 0x3F8B3BB43E (.node 0x3F8A97D5B0 (.leaf 0x1D369) (.leaf 0x1D36E)) (.node 0x3F8BA5CCB0 (.leaf 0x101EB) (.leaf 0x1D36A))) (.node 0x3F8F6EBC4A (.node 0x3F8C5F1335 (.leaf 0x23CD) (.leaf 0x289)) (.node 0x3F910E6161 (.leaf 0xF7F) (.leaf 0x1F229))))) (nameTree_551)
def nameTree_553 : NameTree := .node 0x3FA09D20A9 (.node 0x3FA09720A9 (.node 0x3FA09124A9 (.node 0x3FA09120A9 (.leaf 0xA154) (.leaf 0xA151)) (.node 0x3FA0971CA9 (.leaf 0xA152) (.leaf 0xA15E))) (.node 0x3FA09D1CA9 (.node 0x3FA09724A9 (.leaf 0xA15B) (.leaf 0xA15C)) (.node 0x3FA09D1EA9 (.leaf 0xA165) (.leaf 0xA167)))) (.node 0x3FA38924A9 (.node 0x3FA3891CA9 (.node 0x3FA09D24A9 (.leaf 0xA162) (.leaf 0xA163)) (.node 0x3FA38920A9 (.leaf 0xA263) (.leaf 0xA260))) (.node 0x3FA38D24A9 (.node 0x3FA38D1CA9 (.leaf 0xA261) (.leaf 0xA26D)) (.node 0x3FA39111A9 (.leaf 0xA26B) (.leaf 0xA25E))))
def nameTree_554 : NameTree := .node 0x3FA0911CA9 (.node 0x3F9EA120A9 (.node 0x3F9E9D20A9 (.node 0x3F9E9D1CA9 (.leaf 0xA082) (.node 0x3F9E9D1EA9 (.leaf 0xA088) (.leaf 0xA08A))) (.node 0x3F9EA11CA9 (.node 0x3F9E9D24A9 (.leaf 0xA085) (.leaf 0xA086)) (.node 0x3F9EA11EA9 (.leaf 0xA08E) (.leaf 0xA090)))) (.node 0x3FA08924A9 (.node 0x3FA0891CA9 (.node 0x3F9EA124A9 (.leaf 0xA08B) (.leaf 0xA08C)) (.node 0x3FA08920A9 (.leaf 0xA15A) (.leaf 0xA157))) (.node 0x3FA08D24A9 (.node 0x3FA08D1CA9 (.leaf 0xA158) (.leaf 0xA161)) (.node 0x3FA09111A9 (.leaf 0xA15F) (.leaf 0xA156))))) (nameTree_553)
def nameTree_555 : NameTree := .node 0x3FA7551DAC (.node 0x3FA6A11CA9 (.node 0x3FA69D1EA9 (.node 0x3FA69D1CA9 (.leaf 0xA43A) (.leaf 0xA441)) (.node 0x3FA69D24A9 (.leaf 0xA443) (.leaf 0xA43F))) (.node 0x3FA6A120A9 (.node 0x3FA6A11EA9 (.leaf 0xA447) (.leaf 0xA449)) (.node 0x3FA6A124A9 (.leaf 0xA444) (.leaf 0xA445)))) (.node 0x3FAE8924A9 (.node 0x3FAE891CA9 (.node 0x3FAD99D48D (.leaf 0x1FAA) (.leaf 0x2208)) (.node 0x3FAE8920A9 (.leaf 0xA397) (.leaf 0xA394))) (.node 0x3FAE8D20A9 (.node 0x3FAE8D1CA9 (.leaf 0xA395) (.leaf 0xA39E)) (.node 0x3FAE8D24A9 (.leaf 0xA39B) (.leaf 0xA39C))))
def nameTree_556 : NameTree := .node 0x3FA69D1BA9 (.node 0x3FA59DC6FE (.node 0x3FA39D1BA9 (.node 0x3FA39720A9 (.leaf 0xA26A) (.node 0x3FA39724A9 (.leaf 0xA267) (.leaf 0xA268))) (.node 0x3FA58D1CA9 (.node 0x3FA3B5701F (.leaf 0xA266) (.leaf 0xBA)) (.node 0x3FA58D24A9 (.leaf 0xA183) (.leaf 0xA181)))) (.node 0x3FA69124A9 (.node 0x3FA6911CA9 (.node 0x3FA69111A9 (.leaf 0xE0026) (.leaf 0xA437)) (.node 0x3FA69120A9 (.leaf 0xA434) (.leaf 0xA431))) (.node 0x3FA69720A9 (.node 0x3FA6971CA9 (.leaf 0xA432) (.leaf 0xA43E)) (.node 0x3FA69724A9 (.leaf 0xA43B) (.leaf 0xA43C))))) (nameTree_555)
def nameTree_557 : NameTree := .node 0x3FB59111A9 (.node 0x3FAEA11EA9 (.node 0x3FAE9D1EA9 (.node 0x3FAE9724A9 (.leaf 0xA39A) (.node 0x3FAE9D1CA9 (.leaf 0xA398) (.leaf 0xA3A2))) (.node 0x3FAE9D24A9 (.node 0x3FAE9D20A9 (.leaf 0xA3A4) (.leaf 0xA39F)) (.node 0x3FAEA11CA9 (.leaf 0xA3A0) (.leaf 0xA3A8)))) (.node 0x3FB11EB746 (.node 0x3FAEA124A9 (.node 0x3FAEA120A9 (.leaf 0xA3AA) (.leaf 0xA3A5)) (.node 0x3FAFB6962F (.leaf 0xA3A6) (.leaf 0xFEEF))) (.node 0x3FB19724A9 (.node 0x3FB1971CA9 (.leaf 0x1F2F) (.leaf 0xA189)) (.node 0x3FB19A24A9 (.leaf 0xA187) (.leaf 0xA195))))) (.node 0x3FB59D1BA9 (.node 0x3FB59124A9 (.node 0x3FB5911CA9 (.leaf 0xA450) (.node 0x3FB59120A9 (.leaf 0xA44D) (.leaf 0xA44A))) (.node 0x3FB59720A9 (.node 0x3FB5971CA9 (.leaf 0xA44B) (.leaf 0xA458)) (.node 0x3FB59724A9 (.leaf 0xA455) (.leaf 0xA456)))) (.node 0x3FB6891CA9 (.node 0x3FB59D20A9 (.node 0x3FB59D1CA9 (.leaf 0xA453) (.leaf 0xA45C)) (.node 0x3FB59D24A9 (.leaf 0xA459) (.leaf 0xA45A))) (.node 0x3FB68924A9 (.node 0x3FB68920A9 (.leaf 0xA2F7) (.leaf 0xA2F4)) (.node 0x3FB68D24A9 (.leaf 0xA2F5) (.leaf 0xA2FC)))))
def nameTree_558 : NameTree := .node 0x3FE69CCA5D (.node 0x3FD646C739 (.node 0x3FCC29EAD6 (.node 0x3FC7604261 (.leaf 0x1D151) (.leaf 0x32CF)) (.node 0x3FCCBB78CF (.leaf 0x22A3) (.leaf 0x1F46E))) (.node 0x3FE193C05D (.node 0x3FD70CC8F2 (.leaf 0xAB36) (.leaf 0x2554)) (.node 0x3FE58ED35D (.leaf 0xB67) (.leaf 0xB6C)))) (.node 0x3FF841CB6B (.node 0x3FF04F2DAB (.node 0x3FE9315335 (.leaf 0xB68) (.leaf 0x1D5F)) (.node 0x3FF5BBF098 (.leaf 0x1F0E) (.leaf 0x2334))) (.node 0x3FFEBEB115 (.node 0x3FFEAD0197 (.leaf 0x12213) (.leaf 0x21E3)) (.node 0x3FFF26B32A (.leaf 0x447) (.leaf 0x109D9))))
def nameTree_559 : NameTree := .node 0x3FB99DC600 (.node 0x3FB69D1CA9 (.node 0x3FB69124A9 (.node 0x3FB6911CA9 (.leaf 0xA2F2) (.node 0x3FB69120A9 (.leaf 0xA2F0) (.leaf 0xA2ED))) (.node 0x3FB69724A9 (.node 0x3FB6971CA9 (.leaf 0xA2EE) (.leaf 0xA2FB)) (.node 0x3FB69D1BA9 (.leaf 0xA2FA) (.leaf 0xA2F9)))) (.node 0x3FB6A11EA9 (.node 0x3FB69D24A9 (.node 0x3FB69D1EA9 (.leaf 0xA300) (.leaf 0xA302)) (.node 0x3FB6A11CA9 (.leaf 0xA2FE) (.leaf 0xA306))) (.node 0x3FB6A124A9 (.node 0x3FB6A120A9 (.leaf 0xA308) (.leaf 0xA303)) (.node 0x3FB97B0384 (.leaf 0xA304) (.leaf 0xA9CC))))) (nameTree_558)
def nameTree_560 : NameTree := .node 0x400FCDB115 (.node 0x400C8C860F (.node 0x400B627BB1 (.node 0x400ADFBBB3 (.leaf 0x45A) (.leaf 0xFC89)) (.node 0x400BC9B515 (.leaf 0xA9A6) (.leaf 0x471))) (.node 0x400EBEAD15 (.node 0x400DBEAD15 (.leaf 0x2701) (.leaf 0x517)) (.node 0x400FC9B115 (.leaf 0x448) (.leaf 0x446)))) (.node 0x4016680433 (.node 0x4014B7C015 (.node 0x4014B7B115 (.leaf 0xA68D) (.leaf 0x519)) (.node 0x4015BEB115 (.leaf 0x463) (.leaf 0x436))) (.node 0x401D177416 (.node 0x401AB71AEF (.leaf 0x1F708) (.leaf 0x2045)) (.node 0x402422DABF (.leaf 0x10B4F) (.leaf 0xA834))))
def nameTree_561 : NameTree := .node 0x4009C0B115 (.node 0x4002BEB115 (.node 0x3FFFD0B115 (.node 0x3FFFC0B115 (.leaf 0x1D8B7) (.node 0x3FFFCDB115 (.leaf 0x452) (.leaf 0xA681))) (.node 0x400123EB5D (.node 0x4000750FC0 (.leaf 0x455) (.leaf 0xFE9B)) (.node 0x4001A1848A (.leaf 0xFF04) (.leaf 0x23A7)))) (.node 0x4006C0B115 (.node 0x4003CDB115 (.node 0x4002C0B115 (.leaf 0x433) (.leaf 0x453)) (.node 0x40064E2AE2 (.leaf 0xA695) (.leaf 0xFCB9))) (.node 0x4007BEAD15 (.node 0x4006C9B515 (.leaf 0x45C) (.leaf 0x46F)) (.node 0x4007C0B115 (.leaf 0x515) (.leaf 0x459))))) (nameTree_560)
def nameTree_562 : NameTree := .node 0x40475D6C6C (.node 0x403F74E2E2 (.node 0x403A69EAD3 (.node 0x403A67EAD3 (.leaf 0x1991) (.leaf 0x199E)) (.node 0x403A6AEAD3 (.leaf 0x1986) (.leaf 0x198D))) (.node 0x404453699D (.node 0x4040B632BF (.leaf 0x1D6FF) (.leaf 0x1697)) (.node 0x4047576C6C (.leaf 0x1F7B2) (.leaf 0x11222)))) (.node 0x404C5C6C6C (.node 0x4049596C6C (.node 0x40485D6C6C (.leaf 0x11223) (.leaf 0x1120F)) (.node 0x40495D6C6C (.leaf 0x11216) (.leaf 0x1121D))) (.node 0x404EF7A718 (.node 0x404C5D6C6C (.leaf 0x1120B) (.leaf 0x1120C)) (.node 0x404EFC9918 (.leaf 0x2FBD) (.leaf 0x2F3F))))
def nameTree_563 : NameTree := .node 0x403A65EAD3 (.node 0x403A59EAD3 (.node 0x40343B78D6 (.node 0x402BF04B67 (.leaf 0x11D53) (.node 0x402D22451B (.leaf 0xF35) (.leaf 0x6C3))) (.node 0x403A55EAD3 (.node 0x403A53EAD3 (.leaf 0x20A4) (.leaf 0x19A5)) (.node 0x403A57EAD3 (.leaf 0x19A4) (.leaf 0x199D)))) (.node 0x403A5FEAD3 (.node 0x403A5DEAD3 (.node 0x403A5CEAD3 (.leaf 0x19A3) (.leaf 0x1985)) (.node 0x403A5EEAD3 (.leaf 0x199F) (.leaf 0x1999))) (.node 0x403A62EAD3 (.node 0x403A61EAD3 (.leaf 0x1993) (.leaf 0x1997)) (.node 0x403A64EAD3 (.leaf 0x1981) (.leaf 0x198C))))) (nameTree_562)
def nameTree_564 : NameTree := .node 0x405FC04E9C (.node 0x40536E6C6C (.node 0x4052EF9918 (.node 0x40505D6C6C (.leaf 0x11211) (.node 0x4051616C6C (.leaf 0x11209) (.leaf 0x1122B))) (.node 0x40535C6C6C (.node 0x4052FBA518 (.leaf 0x2FB8) (.leaf 0x2FC7)) (.node 0x4053636C6C (.leaf 0x1120D) (.leaf 0x11218)))) (.node 0x405A8715E8 (.node 0x40595D6C6C (.node 0x40555D6C6C (.leaf 0x11213) (.leaf 0x11220)) (.node 0x4059696C6C (.leaf 0x1121A) (.leaf 0x11214))) (.node 0x405CFDA018 (.node 0x405AC59CC7 (.leaf 0x2225) (.leaf 0x166)) (.node 0x405D00A318 (.leaf 0x2F05) (.leaf 0x2F93))))) (.node 0x407D167561 (.node 0x406579076F (.node 0x4062153631 (.leaf 0x301E) (.node 0x4063E27707 (.leaf 0x1F85) (.leaf 0x2E45))) (.node 0x40784BA88C (.node 0x4069F508A3 (.leaf 0x53C) (.leaf 0x49E)) (.node 0x40790863C0 (.leaf 0x1F549) (.leaf 0xFB68)))) (.node 0x407D2C69D6 (.node 0x407D2C5DD6 (.node 0x407D2C59D6 (.leaf 0x1F21E) (.leaf 0x1E92B)) (.node 0x407D2C63D6 (.leaf 0x1E92D) (.leaf 0x1E92E))) (.node 0x407E0F7561 (.node 0x407DEFCAD6 (.leaf 0x1E935) (.leaf 0x23A4)) (.node 0x407E127561 (.leaf 0x1F220) (.leaf 0x1F21C)))))
def nameTree_565 : NameTree := .node 0x40B7B546C6 (.node 0x40AE71EBC6 (.node 0x409727E265 (.node 0x4096D0E12D (.leaf 0x1F21D) (.leaf 0x1F513)) (.node 0x40AD71F1E4 (.leaf 0x1CE5) (.leaf 0x1FCA))) (.node 0x40B25DEA8D (.node 0x40B1E847DF (.leaf 0x1F29) (.leaf 0x116C0)) (.node 0x40B37AAB79 (.leaf 0x1113F) (.leaf 0x1BFE)))) (.node 0x40B7B55AC6 (.node 0x40B7B54EC6 (.node 0x40B7B54AC6 (.leaf 0xA800) (.leaf 0xA804)) (.node 0x40B7B554C6 (.leaf 0xA801) (.leaf 0xA805))) (.node 0x40C4E9702C (.node 0x40C148A781 (.leaf 0xA803) (.leaf 0x1D1C1)) (.node 0x40D796732C (.leaf 0x118BF) (.leaf 0x2E0A))))
def nameTree_566 : NameTree := .node 0x4092167461 (.node 0x40830F615D (.node 0x407FD72D20 (.node 0x407F217461 (.leaf 0x1F239) (.node 0x407F246461 (.leaf 0x1F212) (.leaf 0x1F22E))) (.node 0x4080116A61 (.node 0x40800E6961 (.leaf 0x269B) (.leaf 0x1F234)) (.node 0x4081206761 (.leaf 0x1F225) (.leaf 0x1F23A)))) (.node 0x4085DC26BC (.node 0x40850F7261 (.node 0x4084246161 (.leaf 0x2489) (.leaf 0x1F224)) (.node 0x4085106A61 (.leaf 0x1F215) (.leaf 0x1F217))) (.node 0x408E136861 (.node 0x408BA005B3 (.leaf 0x3310) (.leaf 0x2201)) (.node 0x4090236761 (.leaf 0x1F211) (.leaf 0x1F22C))))) (nameTree_565)
def nameTree_567 : NameTree := .node 0x412AA7CCB5 (.node 0x411E2C64F2 (.node 0x411A0F74E1 (.node 0x41182F2928 (.leaf 0x2781) (.leaf 0xDCF)) (.node 0x411D08B9FD (.leaf 0x11D58) (.leaf 0x10CB1))) (.node 0x41224B7A41 (.node 0x411F4423AE (.leaf 0x1D1DF) (.leaf 0x709)) (.node 0x4129A869CB (.leaf 0x1E07) (.leaf 0x101EA)))) (.node 0x412AA9CCB5 (.node 0x412AA7E0B5 (.node 0x412AA7D4B5 (.leaf 0x11D01) (.leaf 0x11D08)) (.node 0x412AA8CCB5 (.leaf 0x11D0B) (.leaf 0x11D22))) (.node 0x412AADCCB5 (.node 0x412AAACCB5 (.leaf 0x11D11) (.leaf 0x11D1D)) (.node 0x412AAECCB5 (.leaf 0x11D0E) (.leaf 0x11D2C))))
def nameTree_568 : NameTree := .node 0x41152C64D0 (.node 0x4106FCD948 (.node 0x40E005C052 (.node 0x40DA1DF44C (.leaf 0x2469) (.node 0x40DAAE6BB1 (.leaf 0x1095) (.leaf 0x16E3))) (.node 0x40FD8018AF (.node 0x40E01D014C (.leaf 0x124B7) (.leaf 0x1094)) (.node 0x41037F25AF (.leaf 0x3025) (.leaf 0x3024)))) (.node 0x4110235AD0 (.node 0x4109226E16 (.node 0x41087E6494 (.leaf 0x297E) (.leaf 0x2E36)) (.node 0x410D53DDA5 (.leaf 0x10B41) (.leaf 0x1F376))) (.node 0x4111374830 (.node 0x4110627BB1 (.leaf 0x2780) (.leaf 0xA9AF)) (.node 0x41141E6DD0 (.leaf 0x12237) (.leaf 0x2785))))) (nameTree_567)
def nameTree_569 : NameTree := .node 0x41424C5BA2 (.node 0x413B5DE395 (.node 0x413ACBB830 (.node 0x41361352AC (.leaf 0x22B4) (.leaf 0x19E1)) (.node 0x413AE8DDB1 (.leaf 0x12198) (.leaf 0x11449))) (.node 0x4141425A9D (.node 0x413DC68983 (.leaf 0x24) (.leaf 0x16B31)) (.node 0x41424565F4 (.leaf 0x1F54B) (.leaf 0x1F3F7)))) (.node 0x4147456D50 (.node 0x4144496AFE (.node 0x41434F648E (.leaf 0x2207) (.leaf 0x1F953)) (.node 0x4144514720 (.leaf 0x1F4FB) (.leaf 0x2BBF))) (.node 0x41474C5C93 (.node 0x4147456E50 (.leaf 0x1F4DF) (.leaf 0x1F5D0)) (.node 0x41476685FE (.leaf 0x1F985) (.leaf 0x1F409))))
def nameTree_570 : NameTree := .node 0x4133E67A3E (.node 0x412AB8CCB5 (.node 0x412AB2CCB5 (.node 0x412AB0CCB5 (.leaf 0x11D03) (.node 0x412AB1CCB5 (.leaf 0x11D13) (.leaf 0x11D0C))) (.node 0x412AB4CCB5 (.node 0x412AB3CCB5 (.leaf 0x11D27) (.leaf 0x11D24)) (.node 0x412AB6CCB5 (.leaf 0x11D1F) (.leaf 0x11D20)))) (.node 0x412ABCCCB5 (.node 0x412ABACCB5 (.node 0x412AB9CCB5 (.leaf 0x11D26) (.leaf 0x11D2B)) (.node 0x412ABBE0B5 (.leaf 0x11D1B) (.leaf 0x11D05))) (.node 0x412B7DED03 (.node 0x412ABFCCB5 (.leaf 0x11D28) (.leaf 0x11D25)) (.node 0x412FB672CB (.leaf 0x11C65) (.leaf 0x101E9))))) (nameTree_569)
def nameTree_571 : NameTree := .node 0x4161B2CED7 (.node 0x415D2626EF (.node 0x415BF19D18 (.node 0x415639FB84 (.leaf 0x2236) (.leaf 0x1F38D)) (.node 0x415C9251EF (.leaf 0x2F28) (.leaf 0x2B1))) (.node 0x415E303FEF (.node 0x415DD78CEF (.leaf 0x1DAC) (.leaf 0x1DB3)) (.node 0x4160A6D0CA (.leaf 0x1DB9) (.leaf 0x23AA)))) (.node 0x416BD8CEE5 (.node 0x4167627BB1 (.node 0x4165120607 (.leaf 0xFD19) (.leaf 0x214D)) (.node 0x4167959993 (.leaf 0xA9A1) (.leaf 0x1F508))) (.node 0x4174DEC472 (.node 0x4171935DEE (.leaf 0x2235) (.leaf 0x1F896)) (.node 0x417C4B7F63 (.leaf 0xA874) (.leaf 0x559))))
def nameTree_572 : NameTree := .node 0x4154496AFE (.node 0x414E4B4820 (.node 0x414C619EE5 (.node 0x4149653098 (.leaf 0x1F9DA) (.node 0x414C4B8498 (.leaf 0x26D3) (.leaf 0x2B4A))) (.node 0x414E446FE5 (.node 0x414C76452A (.leaf 0x2696) (.leaf 0x29BF)) (.node 0x414E47663C (.leaf 0x1F36C) (.leaf 0x1F361)))) (.node 0x4152456AE5 (.node 0x414E7251FE (.node 0x414E4F5BE5 (.leaf 0x2625) (.leaf 0x1F6F6)) (.node 0x41505D8FFE (.leaf 0x2645) (.leaf 0x1F347))) (.node 0x4152545F93 (.node 0x41524F64E5 (.leaf 0x2038) (.leaf 0x2C7)) (.node 0x41544365B1 (.leaf 0x2641) (.leaf 0x231A))))) (nameTree_571)
def nameTree_573 : NameTree := .node 0x4191166161 (.node 0x418CC9A581 (.node 0x418BE433BC (.node 0x4188CE9281 (.leaf 0x1F4C6) (.leaf 0xE51)) (.node 0x418BF07857 (.leaf 0x3342) (.leaf 0xFEC6))) (.node 0x418DD79C81 (.node 0x418CEE5751 (.leaf 0xE56) (.leaf 0x1F529)) (.node 0x4190A781DB (.leaf 0xE52) (.leaf 0x2766)))) (.node 0x4193F01402 (.node 0x41929A8303 (.node 0x41920F6561 (.leaf 0x1F235) (.leaf 0x1F226)) (.node 0x41938C6655 (.leaf 0x2202) (.leaf 0xA794))) (.node 0x419DB51868 (.node 0x4199B87292 (.leaf 0x23A8) (.leaf 0x26BC)) (.node 0x41A54A1578 (.leaf 0x250C) (.leaf 0xFD74))))
def nameTree_574 : NameTree := .node 0x41837A78D4 (.node 0x4181176A61 (.node 0x417E176661 (.node 0x417E127361 (.leaf 0x2A71) (.node 0x417E136461 (.leaf 0x1F210) (.leaf 0x1F231))) (.node 0x417F136661 (.node 0x417F0E6861 (.leaf 0x1F227) (.leaf 0x1F22F)) (.node 0x417F45C903 (.leaf 0x1F228) (.leaf 0x30)))) (.node 0x4181E1E4C0 (.node 0x4181D3D6C0 (.node 0x4181206161 (.leaf 0x1F21B) (.leaf 0x1F21F)) (.node 0x4181DBDEC0 (.leaf 0x15AD) (.leaf 0x15A9))) (.node 0x41830E6961 (.node 0x4182106161 (.leaf 0x15AB) (.leaf 0x1F219)) (.node 0x41830E6A61 (.leaf 0x1F237) (.leaf 0x1F236))))) (nameTree_573)
def nameTree_575 : NameTree := .node 0x41F04716A5 (.node 0x41E05B1D47 (.node 0x41DDFFD503 (.node 0x41D80970AB (.leaf 0xA4A6) (.leaf 0xA758)) (.node 0x41E0226451 (.leaf 0x2B8F) (.leaf 0x11064))) (.node 0x41E95FE379 (.node 0x41E86D7CC3 (.leaf 0x1FEB) (.leaf 0x259E)) (.node 0x41E9A27DE2 (.leaf 0x1FEE) (.leaf 0x1D338)))) (.node 0x42193DF888 (.node 0x41FFA2EDB4 (.node 0x41FB6B4237 (.leaf 0x1F697) (.leaf 0x1DA17)) (.node 0x420E3405F3 (.leaf 0xFC2B) (.leaf 0x1D33E))) (.node 0x42202EFA4A (.node 0x421D30015E (.leaf 0x1F91) (.leaf 0x2EEE)) (.node 0x422EB307D1 (.leaf 0x2EE2) (.leaf 0x1D98B))))
def nameTree_576 : NameTree := .node 0x41C6030570 (.node 0x41B59A24A9 (.node 0x41B04D02A6 (.node 0x41A58D24A9 (.leaf 0xA03E) (.node 0x41AAE4ECCE (.leaf 0xA03C) (.leaf 0x2DF))) (.node 0x41B19724A9 (.node 0x41B1971CA9 (.leaf 0x7E9) (.leaf 0xA045)) (.node 0x41B19A24A9 (.leaf 0xA043) (.leaf 0xA04E)))) (.node 0x41BA1C3DDA (.node 0x41B87455D1 (.node 0x41B7CA9EEA (.leaf 0xA054) (.leaf 0x101D2)) (.node 0x41B9D0C8FD (.leaf 0xA9C7) (.leaf 0x1056F))) (.node 0x41C3929FF0 (.node 0x41C2F8B2E3 (.leaf 0x1BC9C) (.leaf 0x1D9C8)) (.node 0x41C5FD0670 (.leaf 0x102F5) (.leaf 0xA496))))) (nameTree_575)
def nameTree_577 : NameTree := .node 0x425F274F37 (.node 0x42548BE815 (.node 0x424F4F4B20 (.node 0x424F4D4220 (.leaf 0x1F417) (.leaf 0x1F4A3)) (.node 0x424FE6119A (.leaf 0x1F56E) (.leaf 0xFBEC))) (.node 0x4257DDB6CB (.node 0x42558467EE (.leaf 0x25D9) (.leaf 0x23E2)) (.node 0x425ADB53E9 (.leaf 0x1D004) (.leaf 0x29E6)))) (.node 0x426D9329E4 (.node 0x426B3A4AB1 (.node 0x4263E2BBED (.leaf 0x2CB) (.leaf 0x1F57C)) (.node 0x426D8D29E4 (.leaf 0x1F6A3) (.leaf 0x10CDE))) (.node 0x427B14D568 (.node 0x427254353D (.leaf 0x10CED) (.leaf 0x2A8A)) (.node 0x427D106261 (.leaf 0x1231F) (.leaf 0x1F21A))))
def nameTree_578 : NameTree := .node 0x424F415220 (.node 0x4241544820 (.node 0x42390FFC1D (.node 0x42381588D3 (.leaf 0x2B2F) (.node 0x4238DEBC12 (.leaf 0x20D3) (.leaf 0x2B32))) (.node 0x4241425920 (.node 0x4240CA9DA4 (.leaf 0x2B92) (.leaf 0x2BC7)) (.node 0x42414E4B20 (.leaf 0x1F476) (.leaf 0x1F3E6)))) (.node 0x42480EC613 (.node 0x42426B44EF (.node 0x4242654837 (.leaf 0x1F6C0) (.leaf 0x1F407)) (.node 0x42454C4C20 (.leaf 0x1F380) (.leaf 0x1F514))) (.node 0x4249524420 (.node 0x42485598F4 (.leaf 0xF82) (.leaf 0xA7F8)) (.node 0x424EF29A18 (.leaf 0x1F426) (.leaf 0x2F5F))))) (nameTree_577)
def nameTree_579 : NameTree := .node 0x3F28E71B75 (.node 0x3D54C744AC (.node 0x3C02AD1279 (.node 0x3B9BCA8C71 (.node 0x3B5702AE18 (nameTree_522) (nameTree_524)) (.node 0x3BB2B63CFB (nameTree_526) (nameTree_528))) (.node 0x3CC2720184 (.node 0x3C6003A218 (nameTree_529) (nameTree_531)) (.node 0x3CFC627BB1 (nameTree_533) (nameTree_535)))) (.node 0x3E2B2243FE (.node 0x3D955AAA33 (.node 0x3D64734DA6 (nameTree_536) (nameTree_538)) (.node 0x3DDD902D64 (nameTree_540) (nameTree_542))) (.node 0x3E815FC9CC (.node 0x3E60AA2285 (nameTree_543) (nameTree_545)) (.node 0x3EB19A24A9 (nameTree_547) (nameTree_549))))) (.node 0x404F5F6C6C (.node 0x3FAE971CA9 (.node 0x3F9E9724A9 (.node 0x3F75B697A0 (nameTree_550) (nameTree_552)) (.node 0x3FA3971CA9 (nameTree_554) (nameTree_556))) (.node 0x3FFF6B4E6C (.node 0x3FB69111A9 (nameTree_557) (nameTree_559)) (.node 0x40250C6AFA (nameTree_561) (nameTree_563)))) (.node 0x41495270EA (.node 0x40D8DCE1B1 (.node 0x407E156361 (nameTree_564) (nameTree_566)) (.node 0x412AAFD4B5 (nameTree_568) (nameTree_570))) (.node 0x41A58D1CA9 (.node 0x417DBF01AE (nameTree_572) (nameTree_574)) (.node 0x4236BD1A2D (nameTree_576) (nameTree_578)))))
def nameTree_580 : NameTree := .node 0x429FD00212 (.node 0x428B43911F (.node 0x428425FD85 (.node 0x4281116461 (.leaf 0x1F222) (.node 0x4281509EF1 (.leaf 0x1F238) (.leaf 0x1D6E1))) (.node 0x428891EC40 (.node 0x4285166261 (.leaf 0x704) (.leaf 0x1F232)) (.node 0x428AE92EBC (.leaf 0x1D8B6) (.leaf 0x3305)))) (.node 0x4292566452 (.node 0x4290126361 (.node 0x428D157261 (.leaf 0x135F) (.leaf 0x1F233)) (.node 0x429210DF2F (.leaf 0x1F221) (.leaf 0x1884))) (.node 0x429AA1DC26 (.node 0x4292939A52 (.leaf 0x120D6) (.leaf 0x23C0)) (.node 0x429B1C0457 (.leaf 0xA832) (.leaf 0x5E5))))) (.node 0x42B19724A9 (.node 0x42A58D24A9 (.node 0x42A58D1CA9 (.leaf 0xFC40) (.node 0x42A58D20A9 (.leaf 0xA403) (.leaf 0xA400))) (.node 0x42B1971CA9 (.node 0x42B093A484 (.leaf 0xA401) (.leaf 0x2577)) (.node 0x42B19720A9 (.leaf 0xA407) (.leaf 0xA404)))) (.node 0x42CCEC1A87 (.node 0x42B59A24A9 (.node 0x42B19A24A9 (.leaf 0xA405) (.leaf 0xA410)) (.node 0x42B9011F85 (.leaf 0xA416) (.leaf 0xF37))) (.node 0x42CD636CE9 (.node 0x42CD6366E9 (.leaf 0x1008F) (.leaf 0x11A5A)) (.node 0x42D6F70A70 (.leaf 0x11A59) (.leaf 0xA499)))))
def nameTree_581 : NameTree := .node 0x42FDB84971 (.node 0x42EB1CD086 (.node 0x42E23158A5 (.node 0x42DC91F39A (.leaf 0x1855) (.leaf 0xFBF2)) (.node 0x42E828B109 (.leaf 0x1DBF) (.leaf 0x1D82C))) (.node 0x42F2538961 (.node 0x42EE38C82B (.leaf 0x1F02A) (.leaf 0x301B)) (.node 0x42F44A827A (.leaf 0x1DA1F) (.leaf 0x1F50E)))) (.node 0x4302ED0B4F (.node 0x4302ED014F (.node 0x4302ECFD4F (.leaf 0x791) (.leaf 0x30A1)) (.node 0x4302ED054F (.leaf 0x30A7) (.leaf 0x30A3))) (.node 0x430A63E2E9 (.node 0x4302ED114F (.leaf 0x30A9) (.leaf 0x30A5)) (.node 0x430ACA06FB (.leaf 0x1F403) (.leaf 0x2D2))))
def nameTree_582 : NameTree := .node 0x42D9238D93 (.node 0x42D9158D93 (.node 0x42D90C8D93 (.node 0x42D7030570 (.leaf 0xA4BF) (.node 0x42D838C260 (.leaf 0xA49F) (.leaf 0x2A1F))) (.node 0x42D9118D93 (.node 0x42D90E8D93 (.leaf 0x184B) (.leaf 0x1851)) (.node 0x42D9148D93 (.leaf 0x184E) (.leaf 0x1853)))) (.node 0x42D91B8D93 (.node 0x42D9199193 (.node 0x42D9178D93 (.leaf 0x1857) (.leaf 0x184F)) (.node 0x42D91A8D93 (.leaf 0x1848) (.leaf 0x184C))) (.node 0x42D91F9193 (.node 0x42D91E8D93 (.leaf 0x184D) (.leaf 0x1850)) (.node 0x42D9218D93 (.leaf 0x1849) (.leaf 0x1856))))) (nameTree_581)
def nameTree_583 : NameTree := .node 0x43110C2E8C (.node 0x43110C2A8C (.node 0x43110C288C (.node 0x43110C278C (.leaf 0x1D4F7) (.leaf 0x1D4F8)) (.node 0x43110C298C (.leaf 0x1D4F9) (.leaf 0x1D4FA))) (.node 0x43110C2C8C (.node 0x43110C2B8C (.leaf 0x1D4FB) (.leaf 0x1D4FC)) (.node 0x43110C2D8C (.leaf 0x1D4FD) (.leaf 0x1D4FE)))) (.node 0x43110C328C (.node 0x43110C308C (.node 0x43110C2F8C (.leaf 0x1D4FF) (.leaf 0x1D500)) (.node 0x43110C318C (.leaf 0x1D501) (.leaf 0x1D502))) (.node 0x4311BB040E (.node 0x43114E2E32 (.leaf 0x1D503) (.leaf 0x25ED)) (.node 0x4314C4B175 (.leaf 0x49D) (.leaf 0xFEBD))))
def nameTree_584 : NameTree := .node 0x43110C268C (.node 0x43110C1E8C (.node 0x43110C1A8C (.node 0x430C22FB4B (.leaf 0xFCD7) (.node 0x43110C198C (.leaf 0x239B) (.leaf 0x1D4EA))) (.node 0x43110C1C8C (.node 0x43110C1B8C (.leaf 0x1D4EB) (.leaf 0x1D4EC)) (.node 0x43110C1D8C (.leaf 0x1D4ED) (.leaf 0x1D4EE)))) (.node 0x43110C228C (.node 0x43110C208C (.node 0x43110C1F8C (.leaf 0x1D4EF) (.leaf 0x1D4F0)) (.node 0x43110C218C (.leaf 0x1D4F1) (.leaf 0x1D4F2))) (.node 0x43110C248C (.node 0x43110C238C (.leaf 0x1D4F3) (.leaf 0x1D4F4)) (.node 0x43110C258C (.leaf 0x1D4F5) (.leaf 0x1D4F6))))) (nameTree_583)
def nameTree_585 : NameTree := .node 0x433BD81740 (.node 0x433874E852 (.node 0x4331C39AFE (.node 0x4331B78EFE (.leaf 0xEC1) (.leaf 0xEB5)) (.node 0x4331C79EFE (.leaf 0xEB9) (.leaf 0xEB7))) (.node 0x4338D8BA4B (.node 0x4338D8B64B (.leaf 0x1D703) (.leaf 0x185D)) (.node 0x4338D8C64B (.leaf 0x185E) (.leaf 0x1861)))) (.node 0x43456AE408 (.node 0x4341526255 (.node 0x43406871A5 (.leaf 0xFB67) (.leaf 0x2EF)) (.node 0x4341AD7E0A (.leaf 0x1F9E3) (.leaf 0xFBF4))) (.node 0x434B614CF9 (.node 0x43486583A2 (.leaf 0x2239) (.leaf 0x2693)) (.node 0x434B61F8EF (.leaf 0x1F680) (.leaf 0x1F3AB))))
def nameTree_586 : NameTree := .node 0x4331B38EFE (.node 0x43214B2DA2 (.node 0x4317CEC255 (.node 0x43153557A1 (.leaf 0xFEA9) (.node 0x4315FE259E (.leaf 0x1F379) (.leaf 0xA749))) (.node 0x431DEB19BC (.node 0x431B8C1CF5 (.leaf 0x111DA) (.leaf 0x302B)) (.node 0x431FC159CF (.leaf 0x11AEB) (.leaf 0x5B1)))) (.node 0x4331AF86FE (.node 0x432A4D3650 (.node 0x432501836B (.leaf 0x1D6DF) (.leaf 0x1DA27)) (.node 0x432C0968C0 (.leaf 0x29E7) (.leaf 0x206B))) (.node 0x4331AF92FE (.node 0x4331AF8EFE (.leaf 0xEB2) (.leaf 0xEC4)) (.node 0x4331AF9EFE (.leaf 0xEB3) (.leaf 0xEC3))))) (nameTree_585)
def nameTree_587 : NameTree := .node 0x436222DEEF (.node 0x435778A3F9 (.node 0x43546B9E93 (.node 0x4352414220 (.leaf 0x1F9E5) (.node 0x4352698F37 (.leaf 0x1F980) (.leaf 0xAF))) (.node 0x43551DACAC (.node 0x43546C2E37 (.leaf 0x2314) (.leaf 0x1F335)) (.node 0x43561BB0E3 (.leaf 0x16A61) (.leaf 0x1F5ED)))) (.node 0x435A26B6AC (.node 0x435958EDF9 (.node 0x435918BFAC (.leaf 0x1F951) (.leaf 0x16A66)) (.node 0x4359EBF69D (.leaf 0x1F905) (.leaf 0x1ED2))) (.node 0x435EA341F4 (.node 0x435AAFD667 (.leaf 0x16A62) (.leaf 0x1085C)) (.node 0x4360F71BA1 (.leaf 0x1F30B) (.leaf 0x297C))))) (.node 0x436EF142C6 (.node 0x4367F7FA2E (.node 0x4362264AEF (.leaf 0x1F414) (.node 0x4364F57302 (.leaf 0x1F997) (.leaf 0x295))) (.node 0x436A9D4250 (.node 0x43682052E5 (.leaf 0x1F79) (.leaf 0x21F0)) (.node 0x436E1C22D0 (.leaf 0x1F37F) (.leaf 0x1E9E)))) (.node 0x436FE57138 (.node 0x436F94E7FE (.node 0x436F6916B9 (.leaf 0x610) (.leaf 0x1D851)) (.node 0x436FE563D2 (.leaf 0x263F) (.leaf 0xD7F9))) (.node 0x436FE5728F (.node 0x436FE571EB (.leaf 0xD7E0) (.leaf 0x11D0)) (.node 0x436FE5753D (.leaf 0x11FF) (.leaf 0xD7E6)))))
def nameTree_588 : NameTree := .node 0x438D23FC38 (.node 0x438D210538 (.node 0x438D1D0338 (.node 0x438D1D0138 (.leaf 0x1C5B) (.leaf 0x1C71)) (.node 0x438D20FB38 (.leaf 0x1C6F) (.leaf 0x1C66))) (.node 0x438D23F438 (.node 0x438D210638 (.leaf 0x1C68) (.leaf 0x1C65)) (.node 0x438D23F838 (.leaf 0x1C5A) (.leaf 0x1C6E)))) (.node 0x438D26FB38 (.node 0x438D240838 (.node 0x438D240238 (.leaf 0x1C64) (.leaf 0x1C73)) (.node 0x438D26F538 (.leaf 0x1C69) (.leaf 0x1C75))) (.node 0x438D2CF638 (.node 0x438D270938 (.leaf 0x1C77) (.leaf 0x1C76)) (.node 0x438D2CF738 (.leaf 0x1C6A) (.leaf 0x1C6B))))
def nameTree_589 : NameTree := .node 0x438D190738 (.node 0x4380EE283D (.node 0x437A04AC9D (.node 0x43775BAE7B (.leaf 0x1F69C) (.node 0x4378580A5D (.leaf 0x10A79) (.leaf 0x16B63))) (.node 0x437E07489C (.node 0x437BE51E3D (.leaf 0x1F841) (.leaf 0x2E96)) (.node 0x437EBF1B33 (.leaf 0x1DC3) (.leaf 0x10AEE)))) (.node 0x4389EDA5AF (.node 0x4385D9EECD (.node 0x4385236461 (.leaf 0x2E97) (.leaf 0x1F216)) (.node 0x43876BEC6D (.leaf 0xA92B) (.leaf 0x2104))) (.node 0x438D18FA38 (.node 0x438C02348D (.leaf 0xFEE5) (.leaf 0x12018)) (.node 0x438D18FF38 (.leaf 0x1C5C) (.leaf 0x1C5E))))) (nameTree_588)
def nameTree_590 : NameTree := .node 0x43AEA11CA9 (.node 0x43AE9D1CA9 (.node 0x43AE9724A9 (.node 0x43AE9720A9 (.leaf 0xA383) (.leaf 0xA380)) (.node 0x43AE9D1BA9 (.leaf 0xA381) (.leaf 0xA37F))) (.node 0x43AE9D20A9 (.node 0x43AE9D1EA9 (.leaf 0xA38B) (.leaf 0xA38D)) (.node 0x43AE9D24A9 (.leaf 0xA388) (.leaf 0xA389)))) (.node 0x43B1971CA9 (.node 0x43AEA120A9 (.node 0x43AEA11EA9 (.leaf 0xA391) (.leaf 0xA393)) (.node 0x43AEA124A9 (.leaf 0xA38E) (.leaf 0xA38F))) (.node 0x43B19A24A9 (.node 0x43B19724A9 (.leaf 0xA3CC) (.leaf 0xA3CA)) (.node 0x43B2E165EF (.leaf 0xA3D8) (.leaf 0x16B41))))
def nameTree_591 : NameTree := .node 0x43AE971CA9 (.node 0x43A38D4A7F (.node 0x4390156161 (.node 0x438D910A7C (.leaf 0x1C6D) (.node 0x438F1F6A61 (.leaf 0x1F5AD) (.leaf 0x1F223))) (.node 0x439B9AAF64 (.node 0x439B99259F (.leaf 0x1F230) (.leaf 0x26F1)) (.node 0x43A1253DA4 (.leaf 0x24D) (.leaf 0x520)))) (.node 0x43AE8D1CA9 (.node 0x43A7466050 (.node 0x43A39A3CC0 (.leaf 0x10A57) (.leaf 0xFBBC)) (.node 0x43AE8924A9 (.leaf 0x2AFC) (.leaf 0xA37C))) (.node 0x43AE8D24A9 (.node 0x43AE8D20A9 (.leaf 0xA387) (.leaf 0xA384)) (.node 0x43AE9615F8 (.leaf 0xA385) (.leaf 0x10111))))) (nameTree_590)
def nameTree_592 : NameTree := .node 0x440B077D46 (.node 0x440B017D46 (.node 0x440AFF7D46 (.node 0x440AFC7D46 (.leaf 0x1724) (.leaf 0x1731)) (.node 0x440B007D46 (.leaf 0x1723) (.leaf 0x172E))) (.node 0x440B047D46 (.node 0x440B027D46 (.leaf 0x172B) (.leaf 0x1728)) (.node 0x440B067D46 (.leaf 0x1729) (.leaf 0x172D)))) (.node 0x441E30C91B (.node 0x440B0B7D46 (.node 0x440B087D46 (.leaf 0x1730) (.leaf 0x1726)) (.node 0x440B0D7D46 (.leaf 0x172F) (.leaf 0x172C))) (.node 0x44228F8E56 (.node 0x44216D273C (.leaf 0x2B9D) (.leaf 0x749)) (.node 0x44262724BE (.leaf 0x495) (.leaf 0x27AF))))
def nameTree_593 : NameTree := .node 0x440AFB7D46 (.node 0x43DE0A9FAD (.node 0x43CD9AB8D5 (.node 0x43C8ABB10E (.leaf 0xA3DE) (.node 0x43CBB31123 (.leaf 0x12250) (.leaf 0x1E6E))) (.node 0x43D31D909A (.node 0x43D21CE298 (.leaf 0x1DD7) (.leaf 0x1F61A)) (.node 0x43D7495864 (.leaf 0xF86) (.leaf 0x11C40)))) (.node 0x43F5FBD4C9 (.node 0x43F495DE0A (.node 0x43F37AE5B6 (.leaf 0xFB86) (.leaf 0x5A4)) (.node 0x43F4998B82 (.leaf 0x10146) (.leaf 0x1D6AD))) (.node 0x440AF67D46 (.node 0x43F601DAC9 (.leaf 0x1148A) (.leaf 0x11488)) (.node 0x440AF87D46 (.leaf 0x172A) (.leaf 0x1727))))) (nameTree_592)
def nameTree_594 : NameTree := .node 0x4450BBBD8C (.node 0x4442956C1C (.node 0x4439CF8C7A (.node 0x442A00374C (.leaf 0x1FDA) (.node 0x442C44574F (.leaf 0x1F39) (.leaf 0x22C5))) (.node 0x443CA7CA5A (.node 0x443A6DE7FB (.leaf 0x1F33D) (.leaf 0x1D70E)) (.node 0x44420EB37A (.leaf 0x11A44) (.leaf 0x10420)))) (.node 0x44475F3D93 (.node 0x44456698F9 (.node 0x4445455220 (.leaf 0x2A3A) (.leaf 0x1F98C)) (.node 0x4445E5C455 (.leaf 0x22A7) (.leaf 0x1F628))) (.node 0x444EFB9A18 (.node 0x444EF1A018 (.leaf 0x1F4D2) (.leaf 0x2F4B)) (.node 0x444F4F5220 (.leaf 0x2F2A) (.leaf 0x1F6AA))))) (.node 0x4456F49A18 (.node 0x4452F3A018 (.node 0x4452DBAB6C (.leaf 0x1D832) (.node 0x4452EF9B18 (.leaf 0x1F61D) (.leaf 0x2FB4))) (.node 0x4455434B20 (.node 0x4452F5A818 (.leaf 0x2FB2) (.leaf 0x2F09)) (.node 0x44554C6A37 (.leaf 0x1F986) (.leaf 0x1F9D1)))) (.node 0x44591A849A (.node 0x4458E07E00 (.node 0x4456FC9A18 (.leaf 0x2F63) (.leaf 0x2F01)) (.node 0x4458E0D500 (.leaf 0x2014) (.leaf 0x2013))) (.node 0x445CFC9C18 (.node 0x445ACF78A2 (.leaf 0x2405) (.leaf 0x1F45C)) (.node 0x445E31A9F1 (.leaf 0x2FA7) (.leaf 0x21A3)))))
def nameTree_595 : NameTree := .node 0x44A48D20A9 (.node 0x44A4891CA9 (.node 0x449792EAA5 (.node 0x449627916B (.leaf 0x2928) (.leaf 0x2BE)) (.node 0x44A374E564 (.leaf 0x11A8) (.leaf 0x1063))) (.node 0x44A48924A9 (.node 0x44A48920A9 (.leaf 0xA3AE) (.leaf 0xA3AB)) (.node 0x44A48D1CA9 (.leaf 0xA3AC) (.leaf 0xA3B9)))) (.node 0x44A49724A9 (.node 0x44A4971CA9 (.node 0x44A48D24A9 (.leaf 0xA3B6) (.leaf 0xA3B7)) (.node 0x44A49720A9 (.leaf 0xA3B5) (.leaf 0xA3B2))) (.node 0x44A49D1CA9 (.node 0x44A49D1BA9 (.leaf 0xA3B3) (.leaf 0xA3B0)) (.node 0x44A49D1EA9 (.leaf 0xA3BD) (.leaf 0xA3BF))))
def nameTree_596 : NameTree := .node 0x4494ABDC0E (.node 0x447C127261 (.node 0x4465A6EF37 (.node 0x445F36FFEC (.leaf 0xC61) (.node 0x4465790B6F (.leaf 0xC60) (.leaf 0x553))) (.node 0x4466F6D13C (.node 0x4466CEC3BB (.leaf 0x1F3DF) (.leaf 0x1035A)) (.node 0x447B709668 (.leaf 0x1F492) (.leaf 0x1664)))) (.node 0x4480D1228C (.node 0x447D8CC458 (.node 0x447D127561 (.leaf 0x1F22B) (.leaf 0x1F23B)) (.node 0x447FD631BC (.leaf 0x1F481) (.leaf 0x3389))) (.node 0x4485E734BC (.node 0x4482DFD1D7 (.leaf 0x2E0F) (.leaf 0x12542)) (.node 0x4493AC80CB (.leaf 0x3314) (.leaf 0xD7BD))))) (nameTree_595)
def nameTree_597 : NameTree := .node 0x44AF9D20A9 (.node 0x44AF971CA9 (.node 0x44AF9120A9 (.node 0x44AF911CA9 (.leaf 0xA32F) (.leaf 0xA32D)) (.node 0x44AF9124A9 (.leaf 0xA32A) (.leaf 0xA32B))) (.node 0x44AF9724A9 (.node 0x44AF9720A9 (.leaf 0xA338) (.leaf 0xA335)) (.node 0x44AF9D1CA9 (.leaf 0xA336) (.leaf 0xA33F)))) (.node 0x44AFA120A9 (.node 0x44AFA11CA9 (.node 0x44AF9D24A9 (.leaf 0xA33C) (.leaf 0xA33D)) (.node 0x44AFA11EA9 (.leaf 0xA343) (.leaf 0xA345))) (.node 0x44B1971CA9 (.node 0x44AFA124A9 (.leaf 0xA340) (.leaf 0xA341)) (.node 0x44B19724A9 (.leaf 0xA316) (.leaf 0xA314))))
def nameTree_598 : NameTree := .node 0x44AF9111A9 (.node 0x44A58D1CA9 (.node 0x44A4A11EA9 (.node 0x44A49D24A9 (.leaf 0xA3BA) (.node 0x44A4A11CA9 (.leaf 0xA3BB) (.leaf 0xA3C3))) (.node 0x44A4A124A9 (.node 0x44A4A120A9 (.leaf 0xA3C5) (.leaf 0xA3C0)) (.node 0x44A4E256EB (.leaf 0xA3C1) (.leaf 0x212A)))) (.node 0x44AF8920A9 (.node 0x44AE748261 (.node 0x44A58D24A9 (.leaf 0xA30F) (.leaf 0xA30D)) (.node 0x44AF891CA9 (.leaf 0xE0022) (.leaf 0xA334))) (.node 0x44AF8D1CA9 (.node 0x44AF8924A9 (.leaf 0xA331) (.leaf 0xA332)) (.node 0x44AF8D24A9 (.leaf 0xA33B) (.leaf 0xA339))))) (nameTree_597)
def nameTree_599 : NameTree := .node 0x451DCD88E7 (.node 0x451893801E (.node 0x45130F6EE1 (.node 0x4510D7DDE2 (.leaf 0x10393) (.leaf 0xA6D)) (.node 0x45188C851E (.leaf 0x1F4F4) (.leaf 0x1038B))) (.node 0x451BA08D1E (.node 0x451A908C1E (.leaf 0x10383) (.leaf 0x1038E)) (.node 0x451DCD82E7 (.leaf 0x10390) (.leaf 0x962)))) (.node 0x4529B07DCB (.node 0x452190931E (.node 0x45209E941E (.leaf 0x943) (.leaf 0x1039D)) (.node 0x45269A831E (.leaf 0x10389) (.leaf 0x1038A))) (.node 0x452C4D3F03 (.node 0x452B4B68C4 (.leaf 0x101F6) (.leaf 0x1D6E0)) (.node 0x45372A78FE (.leaf 0x19E5) (.leaf 0x2105))))
def nameTree_600 : NameTree := .node 0x450E948D1E (.node 0x44DC821B55 (.node 0x44BBCD3A80 (.node 0x44B524B3D4 (.leaf 0xA322) (.node 0x44B59A24A9 (.leaf 0xACD) (.leaf 0xA328))) (.node 0x44C8F6FB70 (.node 0x44C12E3F5F (.leaf 0xAB4A) (.leaf 0x1E10)) (.node 0x44C9030A70 (.leaf 0xA4B7) (.leaf 0xA4AA)))) (.node 0x44F59F5195 (.node 0x44E59387EC (.node 0x44E2DE05BB (.leaf 0x1F488) (.leaf 0x1FFD)) (.node 0x44F382BE44 (.leaf 0x1F35A) (.leaf 0x2374))) (.node 0x4507B84971 (.node 0x44FB9E5E95 (.leaf 0xBEB) (.leaf 0xBEA)) (.node 0x450CED2BDF (.leaf 0x796) (.leaf 0xFE17))))) (nameTree_599)
def nameTree_601 : NameTree := .node 0x4552EFA918 (.node 0x45465C34D5 (.node 0x4542D91355 (.node 0x45414E6C46 (.leaf 0x1F351) (.node 0x4542D90F55 (.leaf 0x1F456) (.leaf 0x1844))) (.node 0x4542D91F55 (.node 0x4542D91955 (.leaf 0x1845) (.leaf 0x1846)) (.node 0x4545AB9270 (.leaf 0x1847) (.leaf 0x4F8)))) (.node 0x454E495D41 (.node 0x454C4F684B (.node 0x454B918B64 (.leaf 0x16A6F) (.leaf 0x1BC81)) (.node 0x454D4F67F4 (.leaf 0x1F348) (.leaf 0x1F34B))) (.node 0x45524569E5 (.node 0x454E60F4FE (.leaf 0x1F9DE) (.leaf 0x1F527)) (.node 0x45525270EA (.leaf 0x26B3) (.leaf 0x26F4))))) (.node 0x45614FCA26 (.node 0x4558C2B72F (.node 0x4553545E5A (.leaf 0x2F81) (.node 0x455452694B (.leaf 0x26B6) (.leaf 0x1F687))) (.node 0x455CFDA318 (.node 0x4559455320 (.leaf 0x2041) (.leaf 0x1F440)) (.node 0x455D5EB813 (.leaf 0x2F49) (.leaf 0xA745)))) (.node 0x4572A8FA1F (.node 0x4568363CB6 (.node 0x45637B4FAB (.leaf 0x5E) (.leaf 0x1E09)) (.node 0x45704D3A55 (.leaf 0x25CA) (.leaf 0x1F3F5))) (.node 0x4572A9021F (.node 0x4572A8FE1F (.leaf 0x10CC0) (.leaf 0x10CC9)) (.node 0x4572A9081F (.leaf 0x10CD0) (.leaf 0x10CDB)))))
def nameTree_602 : NameTree := .node 0x45C850051F (.node 0x45B19A24A9 (.node 0x45B19720A9 (.node 0x45B1971CA9 (.leaf 0x2AA1) (.leaf 0xA128)) (.node 0x45B19724A9 (.leaf 0xA125) (.leaf 0xA126))) (.node 0x45BB5EF505 (.node 0x45B5330BEA (.leaf 0xA134) (.leaf 0x2BAD)) (.node 0x45BDFA79A7 (.leaf 0x2A4D) (.leaf 0x1F6CA)))) (.node 0x45DE091A87 (.node 0x45DA7344BB (.node 0x45D63A6311 (.leaf 0x18DC) (.leaf 0x55E)) (.node 0x45DDBAB3E7 (.leaf 0x1F34E) (.leaf 0xFCF2))) (.node 0x45E748F388 (.node 0x45E0A71914 (.leaf 0x25F7) (.leaf 0x22CD)) (.node 0x45ED649FFA (.leaf 0x1F336) (.leaf 0x12537))))
def nameTree_603 : NameTree := .node 0x45AF651418 (.node 0x459781ADA4 (.node 0x458163906A (.node 0x457AD8650D (.leaf 0x10CEA) (.node 0x457F709668 (.leaf 0x2963) (.leaf 0x162B))) (.node 0x458D709668 (.node 0x458AF1B91A (.leaf 0x2FA) (.leaf 0x1117)) (.node 0x458E4CEE6C (.leaf 0x164B) (.leaf 0xFDC0)))) (.node 0x45A58D1CA9 (.node 0x45A2EC5ECC (.node 0x459F972077 (.leaf 0x1F07) (.leaf 0x1FCD)) (.node 0x45A4BDE0FB (.leaf 0x1F855) (.leaf 0x1DAF))) (.node 0x45A5CC14D1 (.node 0x45A58D24A9 (.leaf 0xA120) (.leaf 0xA11E)) (.node 0x45A890F836 (.leaf 0x1F3E9) (.leaf 0x10117))))) (nameTree_602)
def nameTree_604 : NameTree := .node 0x4631403A08 (.node 0x461B38EE93 (.node 0x460F6C26EF (.node 0x460CC45CF2 (.leaf 0x1E905) (.leaf 0x2BAB)) (.node 0x4615741032 (.leaf 0x73F) (.leaf 0x1F41A))) (.node 0x462107C4C0 (.node 0x461E7BE35A (.leaf 0x2A98) (.leaf 0x11C6B)) (.node 0x46306D2552 (.leaf 0x217F) (.leaf 0xC01)))) (.node 0x4642DB9806 (.node 0x463758C2BB (.node 0x4636AB5177 (.leaf 0x8DC) (.leaf 0x274C)) (.node 0x463842A120 (.leaf 0x2BD2) (.leaf 0x20A1))) (.node 0x4646602DF9 (.node 0x4643F7D7FE (.leaf 0xA789) (.leaf 0x1F314)) (.node 0x4649524520 (.leaf 0x26B0) (.leaf 0x1F525))))
def nameTree_605 : NameTree := .node 0x460C1FC0C6 (.node 0x45F39898EE (.node 0x45F38B84EE (.node 0x45F38684EE (.leaf 0x2114) (.node 0x45F38A84EE (.leaf 0x1E904) (.leaf 0x1E90A))) (.node 0x45F39488EE (.node 0x45F38C84EE (.leaf 0x1E918) (.leaf 0x1E916)) (.node 0x45F39684EE (.leaf 0x1E906) (.leaf 0x1E908)))) (.node 0x45F8479A69 (.node 0x45F39D84EE (.node 0x45F39A84EE (.leaf 0x1E91A) (.leaf 0x1E91C)) (.node 0x45F8419469 (.leaf 0x1E912) (.leaf 0xD63))) (.node 0x4604F44963 (.node 0x45FF366FB4 (.leaf 0xD44) (.leaf 0xFE3D)) (.node 0x4604F84963 (.leaf 0x97E) (.leaf 0x922))))) (nameTree_604)
def nameTree_606 : NameTree := .node 0x4679E50EC6 (.node 0x46769CC256 (.node 0x467698C256 (.node 0x467696C256 (.leaf 0x1936) (.leaf 0x1934)) (.node 0x46769AC256 (.leaf 0x1935) (.leaf 0x1937))) (.node 0x467945AA69 (.node 0x4678B6CEFB (.leaf 0x1933) (.leaf 0x86A)) (.node 0x4679B7CEFB (.leaf 0xFE99) (.leaf 0x863)))) (.node 0x4681DC26BC (.node 0x467E705F38 (.node 0x467CBC1621 (.leaf 0x1F92F) (.leaf 0x5AB)) (.node 0x46811FF565 (.leaf 0x20A) (.leaf 0x1F90B))) (.node 0x46863A8EA4 (.node 0x4685E72EBC (.leaf 0x334B) (.leaf 0x3349)) (.node 0x4688FA8EA4 (.leaf 0x1137) (.leaf 0x1138))))
def nameTree_607 : NameTree := .node 0x467695C256 (.node 0x467118F4F1 (.node 0x465D019A18 (.node 0x46513CBF85 (.leaf 0x1F41F) (.node 0x4655534520 (.leaf 0xFEAB) (.leaf 0x23DB))) (.node 0x4667ABCEFB (.node 0x466159BC54 (.leaf 0x2FD0) (.leaf 0x1F67F)) (.node 0x466EA268C8 (.leaf 0x866) (.leaf 0x26E5)))) (.node 0x4673BCCEFB (.node 0x4673AACEFB (.node 0x4671AFCEFB (.leaf 0x1D0F3) (.leaf 0x868)) (.node 0x4673B1CEFB (.leaf 0x860) (.leaf 0x864))) (.node 0x467693C256 (.node 0x46759D15EF (.leaf 0x862) (.leaf 0x1B60)) (.node 0x467694C256 (.leaf 0x1930) (.leaf 0x1938))))) (nameTree_606)
def nameTree_608 : NameTree := .node 0x468D492919 (.node 0x468D49210F (.node 0x468D491DA9 (.node 0x468AB28EA4 (.leaf 0x1F471) (.node 0x468C128EA4 (.leaf 0x113A) (.leaf 0x1139))) (.node 0x468D4920B8 (.node 0x468D49200A (.leaf 0x130FF) (.leaf 0x131AE)) (.node 0x468D49210A (.leaf 0x13251) (.leaf 0x131AF)))) (.node 0x468D492519 (.node 0x468D492419 (.node 0x468D492319 (.leaf 0x1329C) (.leaf 0x13363)) (.node 0x468D49241E (.leaf 0x13364) (.leaf 0x133DC))) (.node 0x468D492719 (.node 0x468D492619 (.leaf 0x13365) (.leaf 0x13366)) (.node 0x468D492819 (.leaf 0x13367) (.leaf 0x13368))))) (.node 0x468D4A21BD (.node 0x468D4A1CA4 (.node 0x468D492A19 (.leaf 0x13369) (.node 0x468D492B19 (.leaf 0x1336A) (.leaf 0x1336B))) (.node 0x468D4A1EA4 (.node 0x468D4A1DA4 (.leaf 0x1305C) (.leaf 0x1305D)) (.node 0x468D4A1FB3 (.leaf 0x1305E) (.leaf 0x131A5)))) (.node 0x468D4A2575 (.node 0x468D4A2319 (.node 0x468D4A2214 (.leaf 0x132B1) (.leaf 0x132D3)) (.node 0x468D4A2475 (.leaf 0x1336D) (.leaf 0x133E6))) (.node 0x468D4A2775 (.node 0x468D4A2675 (.leaf 0x133E7) (.leaf 0x133E8)) (.node 0x468D4B200A (.leaf 0x133E9) (.leaf 0x131B2)))))
def nameTree_609 : NameTree := .node 0x468D4E22B8 (.node 0x468D4E1FB3 (.node 0x468D4E1E00 (.node 0x468D4E1CF6 (.leaf 0x13007) (.leaf 0x13008)) (.node 0x468D4E1E57 (.leaf 0x13145) (.leaf 0x13185))) (.node 0x468D4E21B8 (.node 0x468D4E20B8 (.leaf 0x131AA) (.leaf 0x13258)) (.node 0x468D4E2214 (.leaf 0x13259) (.leaf 0x132D8)))) (.node 0x468D4E23C7 (.node 0x468D4E23B8 (.node 0x468D4E22C2 (.leaf 0x1325A) (.leaf 0x13339)) (.node 0x468D4E23C2 (.leaf 0x1325B) (.leaf 0x1333A))) (.node 0x468D4E25B8 (.node 0x468D4E24B8 (.leaf 0x133D7) (.leaf 0x1325C)) (.node 0x468D4F1E00 (.leaf 0x1325D) (.leaf 0x13147))))
def nameTree_610 : NameTree := .node 0x468D4E1BF6 (.node 0x468D4C23C7 (.node 0x468D4B22BD (.node 0x468D4B21BD (.leaf 0x1329F) (.node 0x468D4B226B (.leaf 0x132B3) (.leaf 0x1330A))) (.node 0x468D4B2475 (.node 0x468D4B2370 (.leaf 0x132B4) (.leaf 0x133B2)) (.node 0x468D4B2575 (.leaf 0x133EB) (.leaf 0x133EC)))) (.node 0x468D4D1C4D (.node 0x468D4C24C7 (.node 0x468D4C2475 (.leaf 0x133D3) (.leaf 0x133EE)) (.node 0x468D4D1BF6 (.leaf 0x133D4) (.leaf 0x13005))) (.node 0x468D4D20B8 (.node 0x468D4D1EAE (.leaf 0x13055) (.leaf 0x1318D)) (.node 0x468D4D2475 (.leaf 0x13256) (.leaf 0x133F0))))) (nameTree_609)
def nameTree_611 : NameTree := .node 0x468E492319 (.node 0x468E482370 (.node 0x468E4821BD (.node 0x468E4821B8 (.leaf 0x13262) (.leaf 0x13263)) (.node 0x468E4822B8 (.leaf 0x132BC) (.leaf 0x13264))) (.node 0x468E491EAE (.node 0x468E491E00 (.leaf 0x133BB) (.leaf 0x1314D)) (.node 0x468E49226B (.leaf 0x13196) (.leaf 0x13316)))) (.node 0x468E4A210A (.node 0x468E492519 (.node 0x468E492419 (.leaf 0x13379) (.leaf 0x1337A)) (.node 0x468E4A200A (.leaf 0x1337B) (.leaf 0x131BD))) (.node 0x468E4A230A (.node 0x468E4A220A (.leaf 0x131BE) (.leaf 0x131BF)) (.node 0x468E4A2319 (.leaf 0x131C0) (.leaf 0x1337D))))
def nameTree_612 : NameTree := .node 0x468E4820B8 (.node 0x468D5023C7 (.node 0x468D4F2419 (.node 0x468D4F226B (.leaf 0x13148) (.node 0x468D4F2319 (.leaf 0x1330F) (.leaf 0x13373))) (.node 0x468D501D52 (.node 0x468D501CFB (.leaf 0x13374) (.leaf 0x1307E)) (.node 0x468D50226B (.leaf 0x130DA) (.leaf 0x13311)))) (.node 0x468D512370 (.node 0x468D511EAE (.node 0x468D511D52 (.leaf 0x133DA) (.leaf 0x130DC)) (.node 0x468D51226B (.leaf 0x13192) (.leaf 0x13313))) (.node 0x468E481EAE (.node 0x468E481CA4 (.leaf 0x133B9) (.leaf 0x13067)) (.node 0x468E48200A (.leaf 0x13194) (.leaf 0x131BA))))) (nameTree_611)
def nameTree_613 : NameTree := .node 0x468E4E226B (.node 0x468E4D2C75 (.node 0x468E4D2A75 (.node 0x468E4D2975 (.leaf 0x133FF) (.leaf 0x13400)) (.node 0x468E4D2B75 (.leaf 0x13401) (.leaf 0x13402))) (.node 0x468E4E200A (.node 0x468E4E1D52 (.leaf 0x13403) (.leaf 0x130E4)) (.node 0x468E4E21BD (.leaf 0x131CA) (.leaf 0x132C3)))) (.node 0x468E4E2775 (.node 0x468E4E2575 (.node 0x468E4E2475 (.leaf 0x1331C) (.leaf 0x13405)) (.node 0x468E4E2675 (.leaf 0x13406) (.leaf 0x13407))) (.node 0x468E4E2975 (.node 0x468E4E2875 (.leaf 0x13408) (.leaf 0x13409)) (.node 0x468E4E2A75 (.leaf 0x1340A) (.leaf 0x1340B))))
def nameTree_614 : NameTree := .node 0x468E4D2875 (.node 0x468E4C2214 (.node 0x468E4A260A (.node 0x468E4A2419 (.leaf 0x131C1) (.node 0x468E4A250A (.leaf 0x1337E) (.leaf 0x131C2))) (.node 0x468E4B1DA9 (.node 0x468E4A270A (.leaf 0x131C3) (.leaf 0x131C4)) (.node 0x468E4C1BF6 (.leaf 0x1310C) (.leaf 0x13011)))) (.node 0x468E4D2475 (.node 0x468E4C2370 (.node 0x468E4C2314 (.leaf 0x132E1) (.leaf 0x132E2)) (.node 0x468E4D200A (.leaf 0x133C0) (.leaf 0x131C8))) (.node 0x468E4D2675 (.node 0x468E4D2575 (.leaf 0x133FB) (.leaf 0x133FC)) (.node 0x468E4D2775 (.leaf 0x133FD) (.leaf 0x133FE))))) (nameTree_613)
def nameTree_615 : NameTree := .node 0x468F482519 (.node 0x468E502161 (.node 0x468E4F200A (.node 0x468E4F1BF6 (.leaf 0x1340C) (.node 0x468E4F1D52 (.leaf 0x13015) (.leaf 0x130E6))) (.node 0x468E4F2370 (.node 0x468E4F2214 (.leaf 0x131CC) (.leaf 0x132E6)) (.node 0x468E502061 (.leaf 0x133C4) (.leaf 0x13201)))) (.node 0x468F481E00 (.node 0x468E5120B8 (.node 0x468E502370 (.leaf 0x13202) (.leaf 0x133C6)) (.node 0x468F481D52 (.leaf 0x1326E) (.leaf 0x130EA))) (.node 0x468F482319 (.node 0x468F4820B8 (.leaf 0x13157) (.leaf 0x13270)) (.node 0x468F482419 (.leaf 0x13387) (.leaf 0x13388))))) (.node 0x468F482C19 (.node 0x468F482819 (.node 0x468F482619 (.leaf 0x13389) (.node 0x468F482719 (.leaf 0x1338A) (.leaf 0x1338B))) (.node 0x468F482A19 (.node 0x468F482919 (.leaf 0x1338C) (.leaf 0x1338D)) (.node 0x468F482B19 (.leaf 0x1338E) (.leaf 0x1338F)))) (.node 0x468F4A200A (.node 0x468F482E19 (.node 0x468F482D19 (.leaf 0x13390) (.leaf 0x13391)) (.node 0x468F491DA9 (.leaf 0x13392) (.leaf 0x13115))) (.node 0x468F4B2319 (.node 0x468F4B22C2 (.leaf 0x131D2) (.leaf 0x1334C)) (.node 0x468F4C200A (.leaf 0x13396) (.leaf 0x131D5)))))
def nameTree_616 : NameTree := .node 0x46904B200A (.node 0x4690492319 (.node 0x4690491DA9 (.node 0x4690491CFB (.leaf 0x133A0) (.leaf 0x13097)) (.node 0x469049200A (.leaf 0x13120) (.leaf 0x131DE))) (.node 0x46904A226B (.node 0x46904A1BF6 (.leaf 0x133A2) (.leaf 0x13025)) (.node 0x46904A22C2 (.leaf 0x1332D) (.leaf 0x13357)))) (.node 0x46904B226B (.node 0x46904B20B8 (.node 0x46904B2061 (.leaf 0x131E1) (.leaf 0x13213)) (.node 0x46904B210A (.leaf 0x13282) (.leaf 0x131E2))) (.node 0x46904C1CFB (.node 0x46904B2319 (.leaf 0x1332F) (.leaf 0x133A5)) (.node 0x46904C1D52 (.leaf 0x1309B) (.leaf 0x130FA))))
def nameTree_617 : NameTree := .node 0x4690482319 (.node 0x468F4F1CFB (.node 0x468F4D20B8 (.node 0x468F4C2370 (.leaf 0x13275) (.node 0x468F4D2061 (.leaf 0x133CD) (.leaf 0x1320A))) (.node 0x468F4E2214 (.node 0x468F4E1E00 (.leaf 0x13277) (.leaf 0x1315E)) (.node 0x468F4E2314 (.leaf 0x132F0) (.leaf 0x132F1)))) (.node 0x468F5120B8 (.node 0x468F50200A (.node 0x468F501D52 (.leaf 0x13092) (.leaf 0x130F3)) (.node 0x468F502319 (.leaf 0x131DA) (.leaf 0x1339C))) (.node 0x468F512319 (.node 0x468F5122C2 (.leaf 0x1327C) (.leaf 0x13353)) (.node 0x46904820B8 (.leaf 0x1339E) (.leaf 0x1327E))))) (nameTree_616)
def nameTree_618 : NameTree := .node 0x46914E1DA9 (.node 0x46914D1BF6 (.node 0x46914B1BF6 (.node 0x46914A1BF6 (.leaf 0x133AE) (.leaf 0x13031)) (.node 0x46914B1E00 (.leaf 0x13033) (.leaf 0x13172))) (.node 0x46914D1E00 (.node 0x46914D1DA9 (.leaf 0x13036) (.leaf 0x13131)) (.node 0x46914E1CFB (.leaf 0x13175) (.leaf 0x130A8)))) (.node 0x4691B52BBC (.node 0x4691501CFB (.node 0x46914F1DA9 (.leaf 0x13133) (.leaf 0x13135)) (.node 0x4691B526BC (.leaf 0x130AB) (.leaf 0x3382))) (.node 0x4691B531BC (.node 0x4691B52CBC (.leaf 0x338C) (.leaf 0x338D)) (.node 0x4691B532BC (.leaf 0x3395) (.leaf 0x339B))))
def nameTree_619 : NameTree := .node 0x4691482319 (.node 0x46904E23B8 (.node 0x46904E1E00 (.node 0x46904D2061 (.leaf 0x13215) (.node 0x46904D2214 (.leaf 0x13217) (.leaf 0x132FB))) (.node 0x46904E21B8 (.node 0x46904E20B8 (.leaf 0x13169) (.leaf 0x13286)) (.node 0x46904E22B8 (.leaf 0x13287) (.leaf 0x13288)))) (.node 0x46904F2319 (.node 0x46904F1E00 (.node 0x46904F1DA9 (.leaf 0x13289) (.leaf 0x13127)) (.node 0x46904F2061 (.leaf 0x1316B) (.leaf 0x1321A))) (.node 0x4691481BF6 (.node 0x4690501DA9 (.leaf 0x133AA) (.leaf 0x13129)) (.node 0x469148200A (.leaf 0x1302E) (.leaf 0x131EA))))) (nameTree_618)
def nameTree_620 : NameTree := .node 0x46934F20FB (.node 0x46934F1CFB (.node 0x46924A1CFB (.node 0x4692491FA9 (.leaf 0x1313B) (.leaf 0x1313C)) (.node 0x46924C1CFB (.leaf 0x130B9) (.leaf 0x130BC))) (.node 0x46934F1EFB (.node 0x46934F1DFB (.leaf 0x130CA) (.leaf 0x130CB)) (.node 0x46934F1FFB (.leaf 0x130CC) (.leaf 0x130CD)))) (.node 0x46970A0FFD (.node 0x46934F22FB (.node 0x46934F21FB (.leaf 0x130CE) (.leaf 0x130CF)) (.node 0x46934F23FB (.leaf 0x130D0) (.leaf 0x130D1))) (.node 0x46A14F7810 (.node 0x469E711A29 (.leaf 0x26F6) (.leaf 0xFDFD)) (.node 0x46A40C842F (.leaf 0xB72) (.leaf 0x12234))))
def nameTree_621 : NameTree := .node 0x4692491EA9 (.node 0x46924820B8 (.node 0x4692481CFB (.node 0x4691B53BBC (.leaf 0x33B2) (.node 0x4691B53CBC (.leaf 0x33B6) (.leaf 0x33BC))) (.node 0x4692481EFB (.node 0x4692481DFB (.leaf 0x130AE) (.leaf 0x130AF)) (.node 0x4692481FFB (.leaf 0x130B0) (.leaf 0x130B1)))) (.node 0x46924822FB (.node 0x46924821B8 (.node 0x46924820FB (.leaf 0x13298) (.leaf 0x130B2)) (.node 0x46924821FB (.leaf 0x13299) (.leaf 0x130B3))) (.node 0x46924824FB (.node 0x46924823FB (.leaf 0x130B4) (.leaf 0x130B5)) (.node 0x4692491DA9 (.leaf 0x130B6) (.leaf 0x1313A))))) (nameTree_620)
def nameTree_622 : NameTree := .node 0x46CCE9C714 (.node 0x46B4B3523F (.node 0x46AC212244 (.node 0x46A72A1944 (.leaf 0x1B41) (.node 0x46AA3EE45E (.leaf 0x10159) (.leaf 0xE1A))) (.node 0x46AFA76A8C (.node 0x46AC332344 (.leaf 0x10164) (.leaf 0x1015C)) (.node 0x46B0C2523F (.leaf 0x1D92C) (.leaf 0x1066)))) (.node 0x46C74DEBAA (.node 0x46B9760A08 (.node 0x46B629A72A (.leaf 0x1065) (.leaf 0x1D8E2)) (.node 0x46B97C1008 (.leaf 0xF79) (.leaf 0xF77))) (.node 0x46C9E1E7D2 (.node 0x46C9D853D5 (.leaf 0x2561) (.leaf 0x2723)) (.node 0x46CCDBF155 (.leaf 0x1F32A) (.leaf 0x1D97E))))) (.node 0x46E931D6F9 (.node 0x46E726DCF9 (.node 0x46CD890034 (.leaf 0x115DD) (.node 0x46E71FD7F9 (.leaf 0x1F787) (.leaf 0xA7B3))) (.node 0x46E92AD6F9 (.node 0x46E925D5F9 (.leaf 0xA76E) (.leaf 0x14A)) (.node 0x46E92BD6F9 (.leaf 0x1A9) (.leaf 0xD0)))) (.node 0x46ED255230 (.node 0x46EB67CB34 (.node 0x46E9DD8EC9 (.leaf 0x1B7) (.leaf 0x3319)) (.node 0x46EB79CB34 (.leaf 0xE87) (.leaf 0xE8D))) (.node 0x46F26775A2 (.node 0x46F22A1A87 (.leaf 0x1D45) (.leaf 0x1F5F3)) (.node 0x46F26779A2 (.leaf 0x11230) (.leaf 0x1122D)))))
def nameTree_623 : NameTree := .node 0x46F8CE20E1 (.node 0x46F6736852 (.node 0x46F6727952 (.node 0x46F66D7452 (.leaf 0xA74F) (.leaf 0x223)) (.node 0x46F6736452 (.leaf 0xA729) (.leaf 0x1D6B))) (.node 0x46F6736E52 (.node 0x46F6736C52 (.leaf 0xAB50) (.leaf 0xA778)) (.node 0x46F6747852 (.leaf 0xAB63) (.leaf 0xA761)))) (.node 0x4703B1CB4D (.node 0x46FEA8C14D (.node 0x46FE29DDB4 (.leaf 0x10A0F) (.leaf 0x2056)) (.node 0x4702A3D44D (.leaf 0x114D1) (.leaf 0x114D6))) (.node 0x4711B84971 (.node 0x4709226E16 (.leaf 0x114D2) (.leaf 0x10B47)) (.node 0x4716DF7438 (.leaf 0x795) (.leaf 0x2A57))))
def nameTree_624 : NameTree := .node 0x46F66D6E52 (.node 0x46F65F7852 (.node 0x46F65F6452 (.node 0x46F26785A2 (.leaf 0x11232) (.node 0x46F65F6052 (.leaf 0x1122F) (.leaf 0xA733))) (.node 0x46F65F7452 (.node 0x46F65F6E52 (.leaf 0xE6) (.leaf 0xA735)) (.node 0x46F65F7552 (.leaf 0xA737) (.leaf 0xA739)))) (.node 0x46F6677252 (.node 0x46F6637352 (.node 0x46F6627952 (.leaf 0xA73D) (.leaf 0x1F3)) (.node 0x46F6667552 (.leaf 0xA76B) (.leaf 0x195))) (.node 0x46F66C6952 (.node 0x46F66A6952 (.leaf 0xA76D) (.leaf 0x1C9)) (.node 0x46F66D6852 (.leaf 0x1CC) (.leaf 0x1A3))))) (nameTree_623)
def nameTree_625 : NameTree := .node 0x475264DE3B (.node 0x474F415420 (.node 0x474CFA97FB (.node 0x4749524C20 (.leaf 0x2020) (.leaf 0x1F467)) (.node 0x474E2CE0A7 (.leaf 0x1CE) (.leaf 0x1F3A1))) (.node 0x474FE6B807 (.node 0x474F5F8737 (.leaf 0x1F410) (.leaf 0x1F6D4)) (.node 0x4752012E02 (.leaf 0xFE80) (.leaf 0x10181)))) (.node 0x475E5543D2 (.node 0x47532D4BE4 (.node 0x475264F23B (.leaf 0xA8EA) (.leaf 0xA8EB)) (.node 0x4755193512 (.leaf 0x1F109) (.leaf 0x1D30D))) (.node 0x476339B156 (.node 0x47604ECD80 (.leaf 0x2BB3) (.leaf 0x1F5CB)) (.node 0x4763B582A5 (.leaf 0x298) (.leaf 0x1104B))))
def nameTree_626 : NameTree := .node 0x47475C8437 (.node 0x473B075A20 (.node 0x47266B1085 (.node 0x4722022C4A (.leaf 0x1AA4) (.node 0x472281661F (.leaf 0x29C8) (.leaf 0x1E39))) (.node 0x4732CBC69C (.node 0x47266B3385 (.leaf 0x12417) (.leaf 0x12420)) (.node 0x4735084D20 (.leaf 0x1F19E) (.leaf 0x1A85)))) (.node 0x47424057E3 (.node 0x473F42F17B (.node 0x473D3DACF6 (.leaf 0x1A84) (.leaf 0x1F61F)) (.node 0x473F5DF2F3 (.leaf 0x1D909) (.leaf 0x303E))) (.node 0x4744A41062 (.node 0x474368E1DD (.leaf 0x27EF) (.leaf 0x1D6FC)) (.node 0x4745415220 (.leaf 0x2B9E) (.leaf 0x2699))))) (nameTree_625)
def nameTree_627 : NameTree := .node 0x47A58D24A9 (.node 0x47A1AF00A3 (.node 0x479B7B81D6 (.node 0x479633A908 (.leaf 0x10E68) (.leaf 0xFF65)) (.node 0x479E0FCAF3 (.leaf 0x1FB6) (.leaf 0x20D4))) (.node 0x47A58D1CA9 (.node 0x47A3DF1C1C (.leaf 0x109E6) (.leaf 0x1018E)) (.node 0x47A58D20A9 (.leaf 0xA0E9) (.leaf 0xA0E6)))) (.node 0x47B2D9143A (.node 0x47B19A24A9 (.node 0x47A5AD97FB (.leaf 0xA0E7) (.leaf 0x10F)) (.node 0x47B29610DF (.leaf 0xA0F8) (.leaf 0x10112))) (.node 0x47B2D916F2 (.node 0x47B2D91596 (.leaf 0x1B05) (.leaf 0x1B0F)) (.node 0x47B2D918FC (.leaf 0x1B07) (.leaf 0x1B11))))
def nameTree_628 : NameTree := .node 0x47958826D7 (.node 0x477E924F9A (.node 0x477088AFB4 (.node 0x476CFF9FE2 (.leaf 0x118FF) (.node 0x476EC34B5A (.leaf 0x2371) (.leaf 0x1099F))) (.node 0x4771556802 (.node 0x477090DBA2 (.leaf 0x223C) (.leaf 0x1F427)) (.node 0x477DE334BC (.leaf 0xFE29) (.leaf 0x3328)))) (.node 0x47878F97BE (.node 0x477F61BE18 (.node 0x477E98559A (.leaf 0xB63) (.leaf 0xB44)) (.node 0x477F9BA5EE (.leaf 0xFFA8) (.leaf 0x11E7))) (.node 0x47886352E0 (.node 0x47881C97FB (.leaf 0x2741) (.leaf 0x10D)) (.node 0x47893321FA (.leaf 0x1DA80) (.leaf 0x3AC))))) (nameTree_627)
def nameTree_629 : NameTree := .node 0x47DEE7E2F6 (.node 0x47D10039F7 (.node 0x47D0FA39F7 (.node 0x47D0F739F7 (.leaf 0x1A23) (.leaf 0x1A3B)) (.node 0x47D0FB39F7 (.leaf 0x1A2A) (.leaf 0x1A34))) (.node 0x47D4A22878 (.node 0x47D15F9C16 (.leaf 0x1A3F) (.leaf 0x295D)) (.node 0x47DC6521D1 (.leaf 0x11C3D) (.leaf 0x1F384)))) (.node 0x47E2628F77 (.node 0x47DF62E58B (.node 0x47DEF12AAE (.leaf 0x9F0) (.leaf 0x109E7)) (.node 0x47E23DD5AC (.leaf 0x951) (.leaf 0xA81))) (.node 0x47E5EBEC48 (.node 0x47E33A883B (.leaf 0x121E7) (.leaf 0xF8A)) (.node 0x47ED546475 (.leaf 0xAB57) (.leaf 0x2C58))))
def nameTree_630 : NameTree := .node 0x47D0F239F7 (.node 0x47C49C636A (.node 0x47B8418D06 (.node 0x47B4F072B2 (.leaf 0x1B09) (.node 0x47B59A24A9 (.leaf 0x236B) (.leaf 0xA0FE))) (.node 0x47BC48F48C (.node 0x47BA34C485 (.leaf 0x1F518) (.leaf 0x11D43)) (.node 0x47C33E97FB (.leaf 0xF20) (.leaf 0x11B)))) (.node 0x47CE8C8427 (.node 0x47CC1B324A (.node 0x47CC0E324A (.leaf 0x2E9) (.leaf 0x11716)) (.node 0x47CC97F284 (.leaf 0x11705) (.leaf 0x1F730))) (.node 0x47D0ED39F7 (.node 0x47D0EA39F7 (.leaf 0x10463) (.leaf 0x1A29)) (.node 0x47D0EF39F7 (.leaf 0x1A3C) (.leaf 0x1A4C))))) (nameTree_629)
def nameTree_631 : NameTree := .node 0x48470CEC39 (.node 0x4841526755 (.node 0x483FD31279 (.node 0x483B094A18 (.leaf 0x1D0) (.leaf 0x1F46B)) (.node 0x48414C62B1 (.leaf 0x1EE7C) (.leaf 0x1F40B))) (.node 0x4845456C55 (.node 0x4843D31279 (.leaf 0x1F988) (.leaf 0x1EE7E)) (.node 0x4845524220 (.leaf 0x1F411) (.leaf 0x1F33F)))) (.node 0x4848909028 (.node 0x4848908828 (.node 0x4847DC06EC (.leaf 0x2380) (.leaf 0x4DF4)) (.node 0x4848908C28 (.leaf 0x7CA) (.leaf 0x7CD))) (.node 0x4848909628 (.node 0x4848909528 (.leaf 0x7CC) (.leaf 0x7D2)) (.node 0x4848909C28 (.leaf 0x7D0) (.leaf 0x7CE))))
def nameTree_632 : NameTree := .node 0x48398297FB (.node 0x481D7A4E19 (.node 0x480CD7D539 (.node 0x47FE6097FB (.leaf 0x7F5) (.node 0x480C46EC28 (.leaf 0x1E7) (.leaf 0xEAD))) (.node 0x4819868014 (.node 0x481917DBC2 (.leaf 0xA69) (.leaf 0x1D1DD)) (.node 0x481BF197FB (.leaf 0x10E6A) (.leaf 0x21F)))) (.node 0x482BCE8328 (.node 0x482A718ACB (.node 0x4828807AAD (.leaf 0xFCD1) (.leaf 0x1F703)) (.node 0x482BCE7F28 (.leaf 0x1F704) (.leaf 0x16A46))) (.node 0x482D52684C (.node 0x482BCE8D28 (.leaf 0x16A58) (.leaf 0x16A52)) (.node 0x483867E69F (.leaf 0xA73F) (.leaf 0x1D714))))) (nameTree_631)
def nameTree_633 : NameTree := .node 0x487C8DAD7B (.node 0x486DC7EED5 (.node 0x486B964D55 (.node 0x486AD975AC (.leaf 0x1F455) (.leaf 0x1F6C1)) (.node 0x486DB84971 (.leaf 0x1F4CC) (.leaf 0x793))) (.node 0x487517F4F1 (.node 0x4874A497FB (.leaf 0x209) (.leaf 0x1E9)) (.node 0x487B709668 (.leaf 0x1D0F1) (.leaf 0x15C7)))) (.node 0x4888629922 (.node 0x487E027DB0 (.node 0x487DFC77B0 (.leaf 0x3249) (.leaf 0x114B8)) (.node 0x487F031FF2 (.leaf 0x114B6) (.leaf 0x11C19))) (.node 0x488BE23ABC (.node 0x488AE83ABC (.leaf 0x12472) (.leaf 0x3309)) (.node 0x488CB962FE (.leaf 0x330A) (.leaf 0xD7D9))))
def nameTree_634 : NameTree := .node 0x4865EDBB55 (.node 0x48559F702A (.node 0x484F536C41 (.node 0x484AD10BFF (.leaf 0x1F9D2) (.node 0x484F4C4520 (.leaf 0xFBE6) (.leaf 0x1F573))) (.node 0x4850E00A33 (.node 0x484F6B97E5 (.leaf 0x1F47B) (.leaf 0x1F3EB)) (.node 0x4852556355 (.leaf 0x120EC) (.leaf 0x1F937)))) (.node 0x4859FDAC18 (.node 0x48571397FB (.node 0x48562ECED5 (.leaf 0x2326) (.leaf 0x4DF8)) (.node 0x485736B6CC (.leaf 0x1F0) (.leaf 0x12511))) (.node 0x486579076F (.node 0x485D3C3055 (.leaf 0x2F7E) (.leaf 0x25C9)) (.node 0x4865838750 (.leaf 0x54F) (.leaf 0x1F3FA))))) (nameTree_633)
def nameTree_635 : NameTree := .node 0x48AC31B74D (.node 0x4899FC1DEC (.node 0x4890A06198 (.node 0x48909E6198 (.leaf 0x7D5) (.leaf 0x7E5)) (.node 0x48923597FB (.leaf 0x7E6) (.leaf 0x13E))) (.node 0x489D9BF699 (.node 0x489BF130B2 (.leaf 0x220) (.leaf 0xFD64)) (.node 0x489EE6A5D8 (.leaf 0x1D84C) (.leaf 0x1F3EA)))) (.node 0x48AF63126C (.node 0x48AF60126C (.node 0x48AF5F126C (.leaf 0x2BB6) (.leaf 0x107F)) (.node 0x48AF61126C (.leaf 0x1078) (.leaf 0x107B))) (.node 0x48AF65126C (.node 0x48AF64126C (.leaf 0x107E) (.leaf 0x1077)) (.node 0x48AF68126C (.leaf 0x1081) (.leaf 0x1075))))
def nameTree_636 : NameTree := .node 0x48909B6198 (.node 0x4890926198 (.node 0x48908C6598 (.node 0x4890896198 (.leaf 0x2203) (.node 0x48908B6198 (.leaf 0x7D3) (.leaf 0x7D8))) (.node 0x48908F6198 (.node 0x48908D6198 (.leaf 0x7CB) (.leaf 0x7DD)) (.node 0x4890916198 (.leaf 0x7E4) (.leaf 0x7D6)))) (.node 0x4890966F98 (.node 0x4890946198 (.node 0x4890936198 (.leaf 0x7DE) (.leaf 0x7DF)) (.node 0x4890956198 (.leaf 0x7E1) (.leaf 0x7E3))) (.node 0x4890996198 (.node 0x4890976198 (.leaf 0x7CF) (.leaf 0x7D4)) (.node 0x48909A6198 (.leaf 0x7D9) (.leaf 0x7DB))))) (nameTree_635)
def nameTree_637 : NameTree := .node 0x468A500DF9 (.node 0x4429003D6A (.node 0x434F415420 (.node 0x430BDB429B (.node 0x42D6FD0670 (nameTree_580) (nameTree_582)) (.node 0x43151513AD (nameTree_584) (nameTree_586))) (.node 0x438D2D0C38 (.node 0x4370F74637 (nameTree_587) (nameTree_589)) (.node 0x43B59A24A9 (nameTree_591) (nameTree_593)))) (.node 0x4541436350 (.node 0x44A49D20A9 (.node 0x445F30F9EC (nameTree_594) (nameTree_596)) (.node 0x44B19A24A9 (nameTree_598) (nameTree_600))) (.node 0x45EE6A6338 (.node 0x4572A90E1F (nameTree_601) (nameTree_603)) (.node 0x4649534820 (nameTree_605) (nameTree_607))))) (.node 0x46A6BD5F9B (.node 0x468E4E2B75 (.node 0x468D4F1F00 (.node 0x468D4B210F (nameTree_608) (nameTree_610)) (.node 0x468E4A240A (nameTree_612) (nameTree_614))) (.node 0x46904C2061 (.node 0x468F4C20B8 (nameTree_615) (nameTree_617)) (.node 0x4691B538BC (nameTree_619) (nameTree_621)))) (.node 0x47B2D91B06 (.node 0x4719D21B24 (.node 0x46F2677FA2 (nameTree_622) (nameTree_624)) (.node 0x47682D80CE (nameTree_626) (nameTree_628))) (.node 0x48494C5AE5 (.node 0x47F74FBF32 (nameTree_630) (nameTree_632)) (.node 0x488D38ADA1 (nameTree_634) (nameTree_636)))))
def nameTree_638 : NameTree := .node 0x48EEF2AAD3 (.node 0x48CD5797FB (.node 0x48B19724A9 (.node 0x48AF77126C (.leaf 0x107C) (.node 0x48B1971CA9 (.leaf 0x1079) (.leaf 0xA286))) (.node 0x48B9C9D33F (.node 0x48B7D979A9 (.leaf 0xA284) (.leaf 0x290A)) (.node 0x48C0F6FB70 (.leaf 0x3020) (.leaf 0xA4C5)))) (.node 0x48D9030670 (.node 0x48D7F70670 (.node 0x48CE687D64 (.leaf 0x148) (.leaf 0x16894)) (.node 0x48D7FD0670 (.leaf 0xA493) (.leaf 0xA4A7))) (.node 0x48DA15F44C (.node 0x48D9FBCBDA (.leaf 0xA4B4) (.leaf 0x21A8)) (.node 0x48EAE897FB (.leaf 0x1099) (.leaf 0x1D2))))) (.node 0x48FC8F7C2D (.node 0x48EEF2ADD3 (.node 0x48EEF2ABD3 (.leaf 0xD7F) (.node 0x48EEF2ACD3 (.leaf 0xD7D) (.leaf 0xD54))) (.node 0x48F499762D (.node 0x48EEF2B8D3 (.leaf 0xD7B) (.leaf 0xD55)) (.node 0x48F56D4F92 (.leaf 0x12457) (.leaf 0x1F3C2)))) (.node 0x4908F84963 (.node 0x48FFAA6252 (.node 0x48FD7818AF (.leaf 0x12456) (.leaf 0x3029)) (.node 0x4901DADF20 (.leaf 0x2CFE) (.leaf 0xA6E))) (.node 0x491BE8B421 (.node 0x49167CF9D2 (.leaf 0x95A) (.leaf 0x1F705)) (.node 0x491E7E165D (.leaf 0x1231B) (.leaf 0x1D8FD)))))
def nameTree_639 : NameTree := .node 0x494E5E90FE (.node 0x494AEA6405 (.node 0x4946E9BB7D (.node 0x4946AD2CB4 (.leaf 0x1F946) (.leaf 0x1F464)) (.node 0x4947456EAC (.leaf 0xA3) (.leaf 0x1F405))) (.node 0x494C61FAF9 (.node 0x494C4461AC (.leaf 0x2BAE) (.leaf 0x7E)) (.node 0x494DF2FA11 (.leaf 0x1F6BD) (.leaf 0x1AB5)))) (.node 0x4952662B98 (.node 0x494FFF8E4D (.node 0x494EBEB375 (.leaf 0x1F934) (.leaf 0x1D6E7)) (.node 0x4952476C5A (.leaf 0xE1) (.leaf 0x264D))) (.node 0x49596FA2E0 (.node 0x4954599003 (.leaf 0x26B7) (.leaf 0x1F3B8)) (.node 0x495973A2E0 (.leaf 0x1121C) (.leaf 0x11217))))
def nameTree_640 : NameTree := .node 0x49464C60FE (.node 0x4930447479 (.node 0x4927CC7AC7 (.node 0x4922BA9CF1 (.leaf 0x12062) (.node 0x4926933471 (.leaf 0x715) (.leaf 0x29D4))) (.node 0x492F12FEDD (.node 0x492896F2D0 (.leaf 0xE0024) (.leaf 0x2583)) (.node 0x493027D6B6 (.leaf 0x1F3AA) (.leaf 0xC03)))) (.node 0x4942525AF4 (.node 0x493D2A610F (.node 0x493C83F82C (.leaf 0x952) (.leaf 0x12471)) (.node 0x493FD99371 (.leaf 0x2588) (.leaf 0x2B9))) (.node 0x494461A250 (.node 0x49439B97FB (.leaf 0x264E) (.leaf 0x159)) (.node 0x4945689198 (.leaf 0x1F577) (.leaf 0x1F6E1))))) (nameTree_639)
def nameTree_641 : NameTree := .node 0x498B218E4D (.node 0x4985E034BC (.node 0x497EBD97FB (.node 0x49755EDED3 (.leaf 0xFCEE) (.leaf 0x82C)) (.node 0x4981E834BC (.leaf 0x165) (.leaf 0x3337))) (.node 0x498852DE81 (.node 0x498625F6DA (.leaf 0x3330) (.leaf 0x290D)) (.node 0x498A709668 (.leaf 0xFD33) (.leaf 0x15D9)))) (.node 0x499E57D397 (.node 0x4994E276AD (.node 0x498BCABF8E (.leaf 0x107) (.leaf 0x1F3C5)) (.node 0x499C4E97FB (.leaf 0x1F82D) (.leaf 0x1D4))) (.node 0x49A58D20A9 (.node 0x49A58D1CA9 (.leaf 0x1D164) (.leaf 0xA464)) (.node 0x49A58D24A9 (.leaf 0xA461) (.leaf 0xA462))))
def nameTree_642 : NameTree := .node 0x496E4E870F (.node 0x496A9A9FFE (.node 0x4960A545F4 (.node 0x495C993CA2 (.leaf 0x2223) (.node 0x495CC8C7BB (.leaf 0x1F690) (.leaf 0x1035F))) (.node 0x496328CB3C (.node 0x49612C97FB (.leaf 0x2F) (.leaf 0x161)) (.node 0x49648835FE (.leaf 0xB8) (.leaf 0x1F98D)))) (.node 0x496DD8BD49 (.node 0x496D885050 (.node 0x496CFDF5F2 (.leaf 0x1F489) (.leaf 0x12446)) (.node 0x496DD8B949 (.leaf 0x2643) (.leaf 0x11400))) (.node 0x496DD8C749 (.node 0x496DD8C149 (.leaf 0x1140A) (.leaf 0x11402)) (.node 0x496DD8CD49 (.leaf 0x1140C) (.leaf 0x11404))))) (nameTree_641)
def nameTree_643 : NameTree := .node 0x49CC964AAA (.node 0x49CC944AAA (.node 0x49CC924AAA (.node 0x49CC9157AA (.leaf 0x3120) (.leaf 0x31A0)) (.node 0x49CC9447AA (.leaf 0x3114) (.leaf 0x31A4))) (.node 0x49CC9450AA (.node 0x49CC944BAA (.leaf 0x311D) (.leaf 0x311F)) (.node 0x49CC9454AA (.leaf 0x3123) (.leaf 0x3126)))) (.node 0x49CC984FAA (.node 0x49CC9657AA (.node 0x49CC9650AA (.leaf 0x31B8) (.leaf 0x312C)) (.node 0x49CC984AAA (.leaf 0x31A3) (.leaf 0x312D))) (.node 0x49CC9857AA (.node 0x49CC9854AA (.leaf 0x31AC) (.leaf 0x31A8)) (.node 0x49CC994BAA (.leaf 0x3129) (.leaf 0x31A2))))
def nameTree_644 : NameTree := .node 0x49CC9057AA (.node 0x49C71B3FD9 (.node 0x49B59A24A9 (.node 0x49B19724A9 (.leaf 0xFE3E) (.node 0x49B2553075 (.leaf 0xA465) (.leaf 0x1D946))) (.node 0x49C5E9ECC3 (.node 0x49B9C59C19 (.leaf 0xA46F) (.leaf 0x23B)) (.node 0x49C6438E4D (.leaf 0x1F4C8) (.leaf 0xE9)))) (.node 0x49CB9472EC (.node 0x49C9880F91 (.node 0x49C84B8D13 (.leaf 0x10A03) (.leaf 0xFFB6)) (.node 0x49CB940791 (.leaf 0x3A7) (.leaf 0x397))) (.node 0x49CC904FAA (.node 0x49CC904BAA (.leaf 0x1F791) (.leaf 0x311E)) (.node 0x49CC9050AA (.leaf 0x31B0) (.leaf 0x3122))))) (nameTree_643)
def nameTree_645 : NameTree := .node 0x49D9881591 (.node 0x49CCA94BAA (.node 0x49CC9E51AA (.node 0x49CC9D49AA (.leaf 0x31B9) (.node 0x49CC9E4FAA (.leaf 0x312B) (.leaf 0x31B1))) (.node 0x49CCA24AAA (.node 0x49CC9E57AA (.leaf 0x31A6) (.leaf 0x3121)) (.node 0x49CCA94AAA (.leaf 0x3115) (.leaf 0x3113)))) (.node 0x49D6930F91 (.node 0x49CD356745 (.node 0x49CCA95BAA (.leaf 0x31A1) (.leaf 0x31BA)) (.node 0x49D6880F91 (.leaf 0x2AF3) (.leaf 0x3A6))) (.node 0x49D92B420C (.node 0x49D8881591 (.leaf 0x3A8) (.leaf 0x3A1)) (.node 0x49D9811491 (.leaf 0x19D1) (.leaf 0x3FA))))) (.node 0x49E1300276 (.node 0x49DD26550C (.node 0x49DA811B91 (.leaf 0x3F7) (.node 0x49DC247E9A (.leaf 0x3A4) (.leaf 0x29FA))) (.node 0x49DEB36429 (.node 0x49DE344C0C (.leaf 0x19D6) (.leaf 0x19D2)) (.node 0x49DF8F1A91 (.leaf 0x111C7) (.leaf 0x37F)))) (.node 0x49EFAA08B1 (.node 0x49EB94918F (.node 0x49E3B0B632 (.leaf 0x1F7B7) (.leaf 0x1016B)) (.node 0x49EB9DBD9A (.leaf 0x23CC) (.leaf 0x3032))) (.node 0x49F7A4DEF1 (.node 0x49F5C22477 (.leaf 0xFCED) (.leaf 0xFEAF)) (.node 0x49F993544B (.leaf 0x1F74F) (.leaf 0x105)))))
def nameTree_646 : NameTree := .node 0x4A302397FB (.node 0x4A23DD31B6 (.node 0x4A22AD54F1 (.node 0x4A21DD33B6 (.leaf 0x1EE4B) (.leaf 0x1EE52)) (.node 0x4A230F575A (.leaf 0x720) (.leaf 0x5F3))) (.node 0x4A29E135B6 (.node 0x4A28B15CC3 (.leaf 0x1EE51) (.leaf 0x2BA6)) (.node 0x4A2E783684 (.leaf 0x1EE49) (.leaf 0xFDFC)))) (.node 0x4A440AF543 (.node 0x4A3C878E4D (.node 0x4A327CB2F4 (.leaf 0x17E) (.leaf 0x23D7)) (.node 0x4A417E47CE (.leaf 0xED) (.leaf 0x229C))) (.node 0x4A440B0943 (.node 0x4A440AFD43 (.leaf 0x1720) (.leaf 0x1721)) (.node 0x4A4E535E0A (.leaf 0x1722) (.leaf 0x2A9C))))
def nameTree_647 : NameTree := .node 0x4A1CDD3AB6 (.node 0x4A11E53BB6 (.node 0x4A051E6E16 (.node 0x4A010ACEBD (.leaf 0xA813) (.node 0x4A01658E4D (.leaf 0x108FE) (.leaf 0x1F5))) (.node 0x4A0DA50643 (.node 0x4A0B2BF3ED (.leaf 0x10B4A) (.leaf 0x1B02)) (.node 0x4A0DBD0A67 (.leaf 0xA74B) (.leaf 0x72F)))) (.node 0x4A14DD31B6 (.node 0x4A14751499 (.node 0x4A13816252 (.leaf 0x1EE4F) (.leaf 0x10E70)) (.node 0x4A14753799 (.leaf 0x12424) (.leaf 0x1242E))) (.node 0x4A18DD35B6 (.node 0x4A15AC31FE (.leaf 0x1EE59) (.leaf 0xFEBA)) (.node 0x4A193BF290 (.leaf 0x1EE47) (.leaf 0x1F72C))))) (nameTree_646)
def nameTree_648 : NameTree := .node 0x4AA58D20A9 (.node 0x4A899ECE55 (.node 0x4A859BB3CA (.node 0x4A7D7F5710 (.leaf 0x2994) (.leaf 0xFD7D)) (.node 0x4A8944546A (.leaf 0xD77) (.leaf 0x11A88))) (.node 0x4A953A8E4D (.node 0x4A92DACECA (.leaf 0x2AAB) (.leaf 0x2AB3)) (.node 0x4AA58D1CA9 (.leaf 0x13A) (.leaf 0xA478)))) (.node 0x4AB1971CA9 (.node 0x4AA682AA84 (.node 0x4AA58D24A9 (.leaf 0xA475) (.leaf 0xA476)) (.node 0x4AA7A6E5B7 (.leaf 0x2574) (.leaf 0xFD85))) (.node 0x4AB19724A9 (.node 0x4AB19720A9 (.leaf 0xA47C) (.leaf 0xA479)) (.node 0x4AB19A24A9 (.leaf 0xA47A) (.leaf 0xA485))))
def nameTree_649 : NameTree := .node 0x4A7A455540 (.node 0x4A5D2D6052 (.node 0x4A554E4F20 (.node 0x4A4F494E20 (.leaf 0x2FAC) (.node 0x4A4F52D269 (.leaf 0x2A1D) (.leaf 0x2B13))) (.node 0x4A56F19A18 (.node 0x4A56175534 (.leaf 0x26B5) (.leaf 0x17D7)) (.node 0x4A5CFD9B18 (.leaf 0x2F76) (.leaf 0x2F27)))) (.node 0x4A74766352 (.node 0x4A6E7A22C9 (.node 0x4A63AF9760 (.leaf 0x1F883) (.leaf 0x1EF)) (.node 0x4A74726352 (.leaf 0x2764) (.leaf 0x112C9))) (.node 0x4A77A98E4D (.node 0x4A777AAB33 (.leaf 0x112CB) (.leaf 0x11D5)) (.node 0x4A77B84971 (.leaf 0x1E31) (.leaf 0x792))))) (nameTree_648)
def nameTree_650 : NameTree := .node 0x4AED02C7D8 (.node 0x4AE68EA50A (.node 0x4AE48AA10A (.node 0x4AE28EA50A (.leaf 0x1EEAF) (.leaf 0x1EEA1)) (.node 0x4AE48AA90A (.leaf 0x1EEB9) (.leaf 0x1EEA3))) (.node 0x4AE95EB2CD (.node 0x4AE88AA50A (.leaf 0x1EEB0) (.leaf 0x1EEA7)) (.node 0x4AEC8AAA0A (.leaf 0x10B5F) (.leaf 0x1EEAB)))) (.node 0x4AF38AA10A (.node 0x4AF18AA30A (.node 0x4AEDED8E4D (.leaf 0x2057) (.leaf 0xF3)) (.node 0x4AF28EA50A (.leaf 0x1EEB2) (.leaf 0x1EEB3))) (.node 0x4AF48EA50A (.node 0x4AF48AA50A (.leaf 0x1EEB1) (.leaf 0x1EEA8)) (.node 0x4AF4E70774 (.leaf 0x1EEB5) (.leaf 0x1D316))))
def nameTree_651 : NameTree := .node 0x4AE192AB0A (.node 0x4ABAC2A9D6 (.node 0x4AB59E5D68 (.node 0x4AB2E5E24F (.leaf 0x1E3F) (.node 0x4AB59A24A9 (.leaf 0x10CCA) (.leaf 0xA48B))) (.node 0x4AB7BFA87A (.node 0x4AB7B6AA2D (.leaf 0x2F8) (.leaf 0x1D6EC)) (.node 0x4AB9A363A1 (.leaf 0x1D6E4) (.leaf 0x467)))) (.node 0x4AD05C8E4D (.node 0x4ACE17D133 (.node 0x4ABB0158FD (.leaf 0x1D6EB) (.leaf 0xC6D)) (.node 0x4ACF8E19E0 (.leaf 0x1D1C8) (.leaf 0x2AB7))) (.node 0x4ADBAFB032 (.node 0x4AD5C7B473 (.leaf 0x144) (.leaf 0x241E)) (.node 0x4AE0E5B808 (.leaf 0x16E) (.leaf 0x1F660))))) (nameTree_650)
def nameTree_652 : NameTree := .node 0x4B0984273B (.node 0x4B09841C3B (.node 0x4AFC91C0D4 (.node 0x4AF98EA50A (.leaf 0x1EEA5) (.node 0x4AFA8AA50A (.leaf 0x1EEA9) (.leaf 0x1EEBA))) (.node 0x4AFEF1B636 (.node 0x4AFEA0EDBD (.leaf 0xA755) (.leaf 0x180E)) (.node 0x4B07E61C8F (.leaf 0x1FC) (.leaf 0x1F657)))) (.node 0x4B0984223B (.node 0x4B09841F3B (.node 0x4B09841D3B (.leaf 0x2D44) (.leaf 0x2D31)) (.node 0x4B0984213B (.leaf 0x2D37) (.leaf 0x2D3C))) (.node 0x4B0984253B (.node 0x4B0984233B (.leaf 0x2D33) (.leaf 0x2D40)) (.node 0x4B0984263B (.leaf 0x2D36) (.leaf 0x2D3D))))) (.node 0x4B09842F3B (.node 0x4B09842B3B (.node 0x4B0984283B (.leaf 0x2D4D) (.node 0x4B0984293B (.leaf 0x2D4E) (.leaf 0x2D4F))) (.node 0x4B09842D3B (.node 0x4B09842C3B (.leaf 0x2D52) (.leaf 0x2D47)) (.node 0x4B09842E3B (.leaf 0x2D54) (.leaf 0x2D59)))) (.node 0x4B0984353B (.node 0x4B0984323B (.node 0x4B0984313B (.leaf 0x2D5C) (.leaf 0x2D60)) (.node 0x4B0984343B (.leaf 0x2D61) (.leaf 0x2D62))) (.node 0x4B0AED03CF (.node 0x4B0988343B (.leaf 0x2D63) (.leaf 0x2D3B)) (.node 0x4B0B7E8E4D (.leaf 0x2710) (.leaf 0x1E55)))))
def nameTree_653 : NameTree := .node 0x4B554C6855 (.node 0x4B4964CFEF (.node 0x4B49456E55 (.node 0x4B47FF0F84 (.leaf 0x27B0) (.leaf 0xFF1D)) (.node 0x4B49535320 (.leaf 0x26F7) (.leaf 0x1F48F))) (.node 0x4B52EFA118 (.node 0x4B4EFAA918 (.leaf 0x1F459) (.leaf 0x2FC4)) (.node 0x4B52FA9B18 (.leaf 0x2F19) (.leaf 0x2F83)))) (.node 0x4B58F7A318 (.node 0x4B56FAA018 (.node 0x4B56706CE6 (.leaf 0x1F480) (.leaf 0xFB52)) (.node 0x4B584BE387 (.leaf 0x2F77) (.leaf 0x122F5))) (.node 0x4B5B89FD55 (.node 0x4B5A9CD303 (.leaf 0x2F6A) (.leaf 0x1F869)) (.node 0x4B5C8D72E5 (.leaf 0x1F7BC) (.leaf 0x1F4E6))))
def nameTree_654 : NameTree := .node 0x4B474960CE (.node 0x4B2DDABCD0 (.node 0x4B151E2E34 (.node 0x4B0F99D289 (.leaf 0xA1) (.node 0x4B119532A0 (.leaf 0x1B55) (.leaf 0x16B3A))) (.node 0x4B18D53FF7 (.node 0x4B1598DF89 (.leaf 0x11303) (.leaf 0x1B54)) (.node 0x4B19ABE709 (.leaf 0x1F858) (.leaf 0x1F7CC)))) (.node 0x4B39991F00 (.node 0x4B343E276A (.node 0x4B2F08E470 (.leaf 0x2504) (.leaf 0x226E)) (.node 0x4B392985D4 (.leaf 0xFDB4) (.leaf 0xFCB6))) (.node 0x4B3C51BFDB (.node 0x4B3A508557 (.leaf 0x224C) (.leaf 0x1228B)) (.node 0x4B46A08E4D (.leaf 0x1F820) (.leaf 0x155))))) (nameTree_653)
def nameTree_655 : NameTree := .node 0x4B8492687F (.node 0x4B7D8B31B7 (.node 0x4B7D709668 (.node 0x4B7BD45103 (.leaf 0x1A44) (.leaf 0xA622)) (.node 0x4B7D7931B7 (.leaf 0x161F) (.leaf 0x1A26))) (.node 0x4B81E23ABC (.node 0x4B818735B7 (.leaf 0x1A2C) (.leaf 0x1A42)) (.node 0x4B8430169E (.leaf 0x3355) (.leaf 0x1F00)))) (.node 0x4B8BE439BC (.node 0x4B87A6383B (.node 0x4B85E726BC (.leaf 0x213C) (.leaf 0x3352)) (.node 0x4B8B362D90 (.leaf 0x2523) (.leaf 0xE0035))) (.node 0x4B91353A90 (.node 0x4B8D99057B (.leaf 0x221A) (.leaf 0x2E88)) (.node 0x4B92A20F7B (.leaf 0xE0034) (.leaf 0x2E89))))
def nameTree_656 : NameTree := .node 0x4B7B8735B7 (.node 0x4B643EF487 (.node 0x4B61F3A518 (.node 0x4B602E3AF9 (.leaf 0x1D8E4) (.node 0x4B61333BFE (.leaf 0x1F373) (.leaf 0x2ADC))) (.node 0x4B64318E4D (.node 0x4B61FDA518 (.leaf 0x2F3B) (.leaf 0x2F4C)) (.node 0x4B643EE487 (.leaf 0x15B) (.leaf 0x122F6)))) (.node 0x4B76CB4703 (.node 0x4B6D91301B (.node 0x4B64D78581 (.leaf 0x122F7) (.leaf 0x29E0)) (.node 0x4B6EE2CEE5 (.leaf 0x1D808) (.leaf 0x1F454))) (.node 0x4B7B7335B7 (.node 0x4B7AC65A03 (.leaf 0xA621) (.leaf 0xA626)) (.node 0x4B7B7E31B7 (.leaf 0x1A53) (.leaf 0x1A4A))))) (nameTree_655)
def nameTree_657 : NameTree := .node 0x4BB1971CA9 (.node 0x4BA4A124A9 (.node 0x4BA4A11EA9 (.node 0x4BA4A11CA9 (.leaf 0xA356) (.leaf 0xA35E)) (.node 0x4BA4A120A9 (.leaf 0xA360) (.leaf 0xA35B))) (.node 0x4BA58D24A9 (.node 0x4BA58D1CA9 (.leaf 0xA35C) (.leaf 0xA293)) (.node 0x4BB115A4FF (.leaf 0xA291) (.leaf 0xFF01)))) (.node 0x4BB611B27E (.node 0x4BB19A24A9 (.node 0x4BB19724A9 (.leaf 0xA29A) (.leaf 0xA298)) (.node 0x4BB59A24A9 (.leaf 0xA2A6) (.leaf 0xA2AC))) (.node 0x4BB68920A9 (.node 0x4BB6891CA9 (.leaf 0x11DA) (.leaf 0xA2DB)) (.node 0x4BB68924A9 (.leaf 0xA2D8) (.leaf 0xA2D9))))
def nameTree_658 : NameTree := .node 0x4BA49D24A9 (.node 0x4BA48D24A9 (.node 0x4BA48920A9 (.node 0x4BA380253D (.leaf 0xFA) (.node 0x4BA4891CA9 (.leaf 0x1F4F5) (.leaf 0xA349))) (.node 0x4BA48D1CA9 (.node 0x4BA48924A9 (.leaf 0xA346) (.leaf 0xA347)) (.node 0x4BA48D20A9 (.leaf 0xA354) (.leaf 0xA351)))) (.node 0x4BA49D1BA9 (.node 0x4BA49720A9 (.node 0x4BA4971CA9 (.leaf 0xA352) (.leaf 0xA350)) (.node 0x4BA49724A9 (.leaf 0xA34D) (.leaf 0xA34E))) (.node 0x4BA49D1EA9 (.node 0x4BA49D1CA9 (.leaf 0xA34B) (.leaf 0xA358)) (.node 0x4BA49D20A9 (.leaf 0xA35A) (.leaf 0xA355))))) (nameTree_657)
def nameTree_659 : NameTree := .node 0x4BB833B8E3 (.node 0x4BB69724A9 (.node 0x4BB6911CA9 (.node 0x4BB68D24A9 (.leaf 0xA2E1) (.node 0x4BB69111A9 (.leaf 0xA2DF) (.leaf 0xA2D6))) (.node 0x4BB69124A9 (.node 0x4BB69120A9 (.leaf 0xA2D3) (.leaf 0xA2D0)) (.node 0x4BB6971CA9 (.leaf 0xA2D1) (.leaf 0xA2DE)))) (.node 0x4BB6A11CA9 (.node 0x4BB69D1EA9 (.node 0x4BB69D1CA9 (.leaf 0xA2DC) (.leaf 0xA2E4)) (.node 0x4BB69D24A9 (.leaf 0xA2E6) (.leaf 0xA2E2))) (.node 0x4BB6A120A9 (.node 0x4BB6A11EA9 (.leaf 0xA2EA) (.leaf 0xA2EC)) (.node 0x4BB6A124A9 (.leaf 0xA2E7) (.leaf 0xA2E8))))) (.node 0x4BD9EAB46D (.node 0x4BCC5A2B16 (.node 0x4BBB0DB637 (.leaf 0x21D9) (.node 0x4BCA29812C (.leaf 0x2E44) (.leaf 0x16DE))) (.node 0x4BD55AFADF (.node 0x4BD2BF5EA7 (.leaf 0x5E8) (.leaf 0x2AAA)) (.node 0x4BD6C3BB6B (.leaf 0x1D9F3) (.leaf 0x747)))) (.node 0x4BE349FA83 (.node 0x4BDB70B5C8 (.node 0x4BDA758E4D (.leaf 0x2D7F) (.leaf 0x1E83)) (.node 0x4BDF5B7967 (.leaf 0x1F806) (.leaf 0x115D0))) (.node 0x4BF6E8F57D (.node 0x4BF2E6B27E (.leaf 0xFBE3) (.leaf 0x11B0)) (.node 0x4BFA190266 (.leaf 0x21C9) (.leaf 0x1B20)))))
def nameTree_660 : NameTree := .node 0x4C33288E4D (.node 0x4C1EBCF4E5 (.node 0x4C1A6FABBB (.node 0x4C18BDE7E5 (.leaf 0xFD) (.leaf 0x16A65)) (.node 0x4C1D867AFB (.leaf 0x6CF) (.leaf 0x10E6B))) (.node 0x4C28AD74CB (.node 0x4C2368A999 (.leaf 0x16A64) (.leaf 0x2387)) (.node 0x4C2AA2B27E (.leaf 0x101E8) (.leaf 0x11C5)))) (.node 0x4C49505320 (.node 0x4C465D8DF9 (.node 0x4C445D36F9 (.leaf 0x17A) (.leaf 0x1F5C0)) (.node 0x4C46659193 (.leaf 0x1F3CC) (.leaf 0x1F933))) (.node 0x4C4C5BDF03 (.node 0x4C4C06183A (.leaf 0x1F5E2) (.leaf 0x1F669)) (.node 0x4C4C5C9937 (.leaf 0x2022) (.leaf 0x26B4))))
def nameTree_661 : NameTree := .node 0x4C15978E4D (.node 0x4C06D319A7 (.node 0x4C01237258 (.node 0x4BFBEB0C6F (.leaf 0x1240E) (.node 0x4BFF3DA693 (.leaf 0x254A) (.leaf 0x1017D))) (.node 0x4C06CF1DA7 (.node 0x4C06CF15A7 (.leaf 0x1F8A8) (.leaf 0x1133E)) (.node 0x4C06CF29A7 (.leaf 0x11348) (.leaf 0x1134C)))) (.node 0x4C0AB13D3E (.node 0x4C06DD23A7 (.node 0x4C06D71DA7 (.leaf 0x11347) (.leaf 0x11340)) (.node 0x4C06E329A7 (.leaf 0x1134B) (.leaf 0x11342))) (.node 0x4C0EAC503E (.node 0x4C0BC776E0 (.leaf 0x3251) (.leaf 0x1013E)) (.node 0x4C0FBA473E (.leaf 0x3256) (.leaf 0x3252))))) (nameTree_660)
def nameTree_662 : NameTree := .node 0x4C8713815C (.node 0x4C7B709668 (.node 0x4C6F17FA16 (.node 0x4C6F17F416 (.leaf 0xE9E) (.leaf 0x11C36)) (.node 0x4C704BEA1D (.leaf 0x11C34) (.leaf 0xE97))) (.node 0x4C7EACDA6B (.node 0x4C7E709668 (.leaf 0x15F8) (.leaf 0x15FE)) (.node 0x4C823907BC (.leaf 0x1D872) (.leaf 0x3D)))) (.node 0x4C8DDFF63A (.node 0x4C883F5B9C (.node 0x4C879845D3 (.leaf 0x1F729) (.leaf 0x295B)) (.node 0x4C8B6B2C8F (.leaf 0xE0028) (.leaf 0x16803))) (.node 0x4C9EA788BD (.node 0x4C901BC1A3 (.leaf 0xFC9C) (.leaf 0xFD6B)) (.node 0x4C9F08AFC4 (.leaf 0x2B1E) (.leaf 0xA75))))
def nameTree_663 : NameTree := .node 0x4C6EEFEA1D (.node 0x4C56FA9A18 (.node 0x4C4F555AE5 (.node 0x4C4F434B20 (.leaf 0x2FBC) (.node 0x4C4F506155 (.leaf 0x1F512) (.leaf 0x2333))) (.node 0x4C5260CC69 (.node 0x4C4FC22221 (.leaf 0x2601) (.leaf 0xA873)) (.node 0x4C55546A50 (.leaf 0xFC28) (.leaf 0x2647)))) (.node 0x4C6505B42B (.node 0x4C5FF39A18 (.node 0x4C5FD73DB1 (.leaf 0x2F61) (.leaf 0x1F3B3)) (.node 0x4C62A44D7F (.leaf 0x2F4A) (.leaf 0x1D92F))) (.node 0x4C66319AE5 (.node 0x4C65D37EF4 (.leaf 0x272) (.leaf 0x1F388)) (.node 0x4C6D3CEA1D (.leaf 0x1F300) (.leaf 0xE84))))) (nameTree_662)
def nameTree_664 : NameTree := .node 0x4CFFC42D27 (.node 0x4CF6056165 (.node 0x4CF54DA470 (.node 0x4CF42F66BE (.leaf 0x150A) (.leaf 0x523)) (.node 0x4CF5975195 (.leaf 0x2E47) (.leaf 0xBEF))) (.node 0x4CF99BD499 (.node 0x4CF6136F65 (.leaf 0x141B) (.leaf 0x1416)) (.node 0x4CFA9AAEB6 (.leaf 0x2C28) (.leaf 0x2C65)))) (.node 0x4D21762BA4 (.node 0x4D0CD9991A (.node 0x4D08F84963 (.leaf 0x620) (.leaf 0x959)) (.node 0x4D187FDA45 (.leaf 0x203B) (.leaf 0x150))) (.node 0x4D25F9C400 (.node 0x4D24FA5314 (.leaf 0x267D) (.leaf 0x2299)) (.node 0x4D2E40F543 (.leaf 0x12219) (.leaf 0x487))))
def nameTree_665 : NameTree := .node 0x4CF20F7765 (.node 0x4CCF503116 (.node 0x4CAE61F48D (.node 0x4CA5940736 (.leaf 0x2C7F) (.node 0x4CAB5BA52B (.leaf 0x10118) (.leaf 0xAB52))) (.node 0x4CBA4FBE88 (.node 0x4CB609C6C2 (.leaf 0x11136) (.leaf 0xFC30)) (.node 0x4CCBE922AF (.leaf 0x2260) (.leaf 0x22B2)))) (.node 0x4CD8A0C35A (.node 0x4CD4850290 (.node 0x4CD13C4E4D (.leaf 0x5E9) (.leaf 0x20BD)) (.node 0x4CD73862B7 (.leaf 0x275D) (.leaf 0x2F66))) (.node 0x4CEC8277B1 (.node 0x4CDF4A27D2 (.leaf 0x1D9ED) (.leaf 0x2E12)) (.node 0x4CF1F17765 (.leaf 0x16A9) (.leaf 0x150B))))) (nameTree_664)
def nameTree_666 : NameTree := .node 0x4D41DA5666 (.node 0x4D3A0DFD05 (.node 0x4D2FB6D586 (.node 0x4D2FB6C986 (.leaf 0x10A05) (.node 0x4D2FB6CF86 (.leaf 0x10A01) (.leaf 0x10A06))) (.node 0x4D3684B793 (.node 0x4D33572C17 (.leaf 0x10A02) (.leaf 0xE17)) (.node 0x4D38E3744A (.leaf 0x23B4) (.leaf 0xFD07)))) (.node 0x4D3DDF4366 (.node 0x4D3B9D15B9 (.node 0x4D3A69BBF6 (.leaf 0x12404) (.leaf 0x12400)) (.node 0x4D3DA389D2 (.leaf 0x2305) (.leaf 0x2237))) (.node 0x4D41474520 (.node 0x4D3FBC17CD (.leaf 0x10107) (.leaf 0x1EE3B)) (.node 0x4D4170F5F9 (.leaf 0x1F9D9) (.leaf 0x1F345))))) (.node 0x4D46DF146A (.node 0x4D42E84D66 (.node 0x4D4267F5F9 (.leaf 0x1010C) (.node 0x4D42D64C66 (.leaf 0x1F9DF) (.leaf 0x10110))) (.node 0x4D454D4F20 (.node 0x4D43B81BE1 (.leaf 0x10108) (.leaf 0x1EE34)) (.node 0x4D45691C37 (.leaf 0x1F4DD) (.leaf 0x1F4F7)))) (.node 0x4D49668193 (.node 0x4D494E5920 (.node 0x4D494C6155 (.leaf 0xA763) (.leaf 0x2323)) (.node 0x4D49643937 (.leaf 0x29FF) (.leaf 0x1F46A))) (.node 0x4D4F67E4EF (.node 0x4D4D5DE037 (.leaf 0x264A) (.leaf 0x1F528)) (.node 0x4D5829ADEC (.leaf 0x1F458) (.leaf 0xA655)))))
def nameTree_667 : NameTree := .node 0x4D98827332 (.node 0x4D93103895 (.node 0x4D8AEF857A (.node 0x4D89EB77E5 (.leaf 0xFCEF) (.leaf 0x109)) (.node 0x4D8E2F65B4 (.leaf 0xA92F) (.leaf 0x27EB))) (.node 0x4D9456E297 (.node 0x4D9321C05C (.leaf 0x1F3DE) (.leaf 0x2E82)) (.node 0x4D982ACA5C (.leaf 0x1D142) (.leaf 0x2E83)))) (.node 0x4DB866DD1E (.node 0x4DAB0E7F98 (.node 0x4D9CCACD52 (.leaf 0x2A76) (.leaf 0x233C)) (.node 0x4DB7015054 (.leaf 0x21E4) (.leaf 0xC69))) (.node 0x4DC5B7D236 (.node 0x4DC3236BE8 (.leaf 0x1D145) (.leaf 0x1D074)) (.node 0x4DC6EF0A70 (.leaf 0x1D87D) (.leaf 0xA4C0))))
def nameTree_668 : NameTree := .node 0x4D883F4A6D (.node 0x4D6ACCD3BB (.node 0x4D619ADF41 (.node 0x4D587A2E93 (.leaf 0x511) (.node 0x4D5D694037 (.leaf 0x2697) (.leaf 0x25E8))) (.node 0x4D6579076F (.node 0x4D6559A710 (.leaf 0x2313) (.leaf 0x225D)) (.node 0x4D6997FBEF (.leaf 0x552) (.leaf 0x1F3CA)))) (.node 0x4D7D2A234F (.node 0x4D6D47208B (.node 0x4D6CED4F03 (.leaf 0x1036D) (.leaf 0x1F3BA)) (.node 0x4D7B709668 (.leaf 0x16843) (.leaf 0x1631))) (.node 0x4D7FD3963E (.node 0x4D7D9586B3 (.leaf 0x2B87) (.leaf 0x1F807)) (.node 0x4D833AA54C (.leaf 0xB57) (.leaf 0x11BA))))) (nameTree_667)
def nameTree_669 : NameTree := .node 0x4E414B6155 (.node 0x4E2CA6DB5D (.node 0x4E216DA30B (.node 0x4E21346C2D (.leaf 0xFBF0) (.leaf 0x1F3CE)) (.node 0x4E2190EEA9 (.leaf 0x1F6E6) (.leaf 0xF08))) (.node 0x4E3FCDCC82 (.node 0x4E2F373B17 (.leaf 0xFCA4) (.leaf 0x20E0)) (.node 0x4E41496855 (.leaf 0xFB9A) (.leaf 0x1F40C)))) (.node 0x4E435C8437 (.node 0x4E4164C537 (.node 0x4E414E4420 (.leaf 0x1F40D) (.leaf 0x22BC)) (.node 0x4E435C2D37 (.leaf 0x1F34C) (.leaf 0x264B))) (.node 0x4E43649393 (.node 0x4E435D3393 (.leaf 0x1F483) (.leaf 0x1F93A)) (.node 0x4E44632037 (.leaf 0x270F) (.leaf 0x1F56F))))
def nameTree_670 : NameTree := .node 0x4E1C346307 (.node 0x4DFB502D12 (.node 0x4DD61141F9 (.node 0x4DC7030870 (.leaf 0xA4C2) (.node 0x4DD1027807 (.leaf 0xA4BA) (.leaf 0x17D4))) (.node 0x4DDC0972C9 (.node 0x4DD9BD7773 (.leaf 0xFC0B) (.leaf 0x1D906)) (.node 0x4DF253D305 (.leaf 0x1D326) (.leaf 0x299F)))) (.node 0x4E1094CBF2 (.node 0x4E065BEE55 (.node 0x4E0131784E (.leaf 0x109F0) (.leaf 0x10FB)) (.node 0x4E0CFC4963 (.leaf 0x101D1) (.leaf 0x934))) (.node 0x4E1B27F096 (.node 0x4E14A1EB26 (.leaf 0x2A14) (.leaf 0x2694)) (.node 0x4E1B939E97 (.leaf 0x1B04) (.leaf 0xFBF6))))) (nameTree_669)
def nameTree_671 : NameTree := .node 0x4E7FF65ED7 (.node 0x4E7D65BAD5 (.node 0x4E78F6A52E (.node 0x4E78C96CB7 (.leaf 0x1F95C) (.leaf 0x2417)) (.node 0x4E7B6725A3 (.leaf 0x2586) (.leaf 0x11CB6))) (.node 0x4E7FF262D7 (.node 0x4E7FF25AD7 (.leaf 0x1F69F) (.leaf 0xA8B5)) (.node 0x4E7FF26ED7 (.leaf 0xA8C0) (.leaf 0xA8C3)))) (.node 0x4E86D21E50 (.node 0x4E800068D7 (.node 0x4E7FFA62D7 (.leaf 0xA8BF) (.leaf 0xA8B7)) (.node 0x4E80066ED7 (.leaf 0xA8C2) (.leaf 0xA8B9))) (.node 0x4E8CCFAD29 (.node 0x4E87F9BAF6 (.leaf 0xFD8D) (.leaf 0x1214C)) (.node 0x4E93B1F636 (.leaf 0x1D0AD) (.leaf 0x1D87))))
def nameTree_672 : NameTree := .node 0x4E709BDC37 (.node 0x4E4F534520 (.node 0x4E494F6B03 (.node 0x4E474C5B37 (.leaf 0x1F3A6) (.node 0x4E4771EBF9 (.leaf 0x2220) (.leaf 0x1F445))) (.node 0x4E4B5F9EF9 (.node 0x4E4ACB3F5E (.leaf 0x222A) (.leaf 0x10B83)) (.node 0x4E4E614D03 (.leaf 0x1F412) (.leaf 0x1F3C3)))) (.node 0x4E5E4386EF (.node 0x4E5B2C58A6 (.node 0x4E4F544520 (.leaf 0x1F443) (.leaf 0x1F5C8)) (.node 0x4E5C3417EA (.leaf 0x4AC) (.leaf 0xA71D))) (.node 0x4E6A3E1B5D (.node 0x4E6945D544 (.leaf 0x1F308) (.leaf 0x2CC8)) (.node 0x4E6F9148EF (.leaf 0x114F) (.leaf 0x1F5A8))))) (nameTree_671)
def nameTree_673 : NameTree := .node 0x4ED4E59C94 (.node 0x4EB6C6A775 (.node 0x4EA2E3207E (.node 0x4E97476AFA (.leaf 0xE0029) (.node 0x4EA00AEFEE (.leaf 0x24F2) (.leaf 0x743))) (.node 0x4EABA0F18F (.node 0x4EA9780336 (.leaf 0x2306) (.leaf 0x389)) (.node 0x4EAC045A3B (.leaf 0x1234C) (.leaf 0xC6E)))) (.node 0x4ECC99950E (.node 0x4EC83A2555 (.node 0x4EC508E943 (.leaf 0x1D6E5) (.leaf 0x27B9)) (.node 0x4ECC932303 (.leaf 0x5B) (.leaf 0x2500))) (.node 0x4ED028340A (.node 0x4ECDFCC0E4 (.leaf 0x2117) (.leaf 0x12144)) (.node 0x4ED3BCCDC2 (.leaf 0x1F12A) (.leaf 0x748))))) (.node 0x4EF0563060 (.node 0x4EDF55A2C5 (.node 0x4ED9986AF3 (.leaf 0x2A17) (.node 0x4EDECDA69C (.leaf 0x1212F) (.leaf 0x2703))) (.node 0x4EEAF977B1 (.node 0x4EEA8B8F3B (.leaf 0x11457) (.leaf 0x10454)) (.node 0x4EEEC79552 (.leaf 0x11667) (.leaf 0x16A)))) (.node 0x4EFA3232E8 (.node 0x4EF4DBDADF (.node 0x4EF0A156F4 (.leaf 0x24EE) (.leaf 0x2F0F)) (.node 0x4EF9BD0624 (.leaf 0x1F4CF) (.leaf 0x11A5B))) (.node 0x4F029A64F9 (.node 0x4F00A954DB (.leaf 0xA66E) (.leaf 0x2F1F)) (.node 0x4F04E29DA9 (.leaf 0x2F54) (.leaf 0x2A89)))))
def nameTree_674 : NameTree := .node 0x4F46E51894 (.node 0x4F43486798 (.node 0x4F41156829 (.node 0x4F3D822FBD (.leaf 0xD4E) (.leaf 0xF18)) (.node 0x4F414C5A9D (.leaf 0x217D) (.leaf 0x1F428))) (.node 0x4F44454E20 (.node 0x4F434B6F55 (.leaf 0x1F52A) (.leaf 0x1F9E6)) (.node 0x4F44678FF9 (.leaf 0x1F362) (.leaf 0x1F429)))) (.node 0x4F46E52D94 (.node 0x4F46E52694 (.node 0x4F46E51C94 (.leaf 0xA732) (.leaf 0xC6)) (.node 0x4F46E52C94 (.leaf 0xA734) (.leaf 0xA736))) (.node 0x4F46E83194 (.node 0x4F46E53094 (.leaf 0xA738) (.leaf 0xA73C)) (.node 0x4F46E92B94 (.leaf 0x1F1) (.leaf 0xA76A))))
def nameTree_675 : NameTree := .node 0x4F388755DF (.node 0x4F23C5C69C (.node 0x4F1FC207A4 (.node 0x4F083B97DD (.leaf 0xFCF7) (.node 0x4F1DBFD0DF (.leaf 0xFB9C) (.leaf 0x1D857))) (.node 0x4F20C5905F (.node 0x4F1FC20DA4 (.leaf 0x1100D) (.leaf 0x1100B)) (.node 0x4F228F35C0 (.leaf 0x1D859) (.leaf 0x1F374)))) (.node 0x4F2EAAD29F (.node 0x4F27D549BE (.node 0x4F27C742BE (.leaf 0x1D96B) (.leaf 0x10431)) (.node 0x4F29B269CB (.leaf 0x10433) (.leaf 0x101F3))) (.node 0x4F35004D20 (.node 0x4F321110FC (.leaf 0x11AE7) (.leaf 0x294B)) (.node 0x4F37580075 (.leaf 0x1A89) (.leaf 0xFDF0))))) (nameTree_674)
def nameTree_676 : NameTree := .node 0x4F52535D98 (.node 0x4F4E603C41 (.node 0x4F4D456AE5 (.node 0x4F4D416BB1 (.leaf 0x1F3BB) (.leaf 0x1F469)) (.node 0x4F4D4D57E5 (.leaf 0x2604) (.leaf 0x2C))) (.node 0x4F4F4B698E (.node 0x4F4EFAA018 (.leaf 0x2DB) (.leaf 0x2FA1)) (.node 0x4F506500FE (.leaf 0x1F4DA) (.leaf 0x1F3C6)))) (.node 0x4F55535D98 (.node 0x4F54456498 (.node 0x4F5301A918 (.leaf 0x1F40E) (.leaf 0x2F91)) (.node 0x4F55436350 (.leaf 0x1F3E8) (.leaf 0x1F45D))) (.node 0x4F5554624B (.node 0x4F55535F4B (.leaf 0x2302) (.leaf 0x1F401)) (.node 0x4F565D8DF4 (.leaf 0x1F444) (.leaf 0x1F9E4))))
def nameTree_677 : NameTree := .node 0x4F4C66A0EF (.node 0x4F46F83194 (.node 0x4F46F22194 (.node 0x4F46EF94C2 (.leaf 0xA76C) (.node 0x4F46F02194 (.leaf 0xE3) (.leaf 0x1C7))) (.node 0x4F46F32694 (.node 0x4F46F32094 (.leaf 0x1CA) (.leaf 0x1A2)) (.node 0x4F46F32C94 (.leaf 0xA74E) (.leaf 0x222)))) (.node 0x4F4ABDF75E (.node 0x4F474770EA (.node 0x4F46FA3094 (.leaf 0xA728) (.leaf 0xA760)) (.node 0x4F496D6684 (.leaf 0x1F301) (.leaf 0x10AF5))) (.node 0x4F4B6024F9 (.node 0x4F4AC7585E (.leaf 0x10B8A) (.leaf 0x10B8D)) (.node 0x4F4C4F64E5 (.leaf 0x1F36A) (.leaf 0x3A))))) (nameTree_676)
def nameTree_678 : NameTree := .node 0x4F6E7574BE (.node 0x4F6710855B (.node 0x4F67107B5B (.node 0x4F66D2C7BB (.leaf 0x1F965) (.leaf 0x1035E)) (.node 0x4F67107F5B (.leaf 0xC46) (.leaf 0xC3F))) (.node 0x4F682DE877 (.node 0x4F67108B5B (.leaf 0xC4A) (.leaf 0xC41)) (.node 0x4F6B4534AC (.leaf 0x4DE6) (.leaf 0x1F419)))) (.node 0x4F7ECC839D (.node 0x4F709131F9 (.node 0x4F6FC9899C (.leaf 0x1D057) (.leaf 0x2CFF)) (.node 0x4F7A57EBAF (.leaf 0x1F6F4) (.leaf 0x11C42))) (.node 0x4F8242AC0A (.node 0x4F801EA735 (.leaf 0x6E9) (.leaf 0xFD13)) (.node 0x4F8616A566 (.leaf 0x1F304) (.leaf 0x2AF9))))
def nameTree_679 : NameTree := .node 0x4F653543E5 (.node 0x4F5C4FDE31 (.node 0x4F57619F98 (.node 0x4F56FC9A18 (.leaf 0x2FB5) (.node 0x4F575D35F4 (.leaf 0x2FA3) (.leaf 0x2698))) (.node 0x4F5C4FD431 (.node 0x4F5941634B (.leaf 0x1F6BF) (.leaf 0x1F5FF)) (.node 0x4F5C4FD831 (.leaf 0x31D4) (.leaf 0x31D0)))) (.node 0x4F5C4FE431 (.node 0x4F5C4FE131 (.node 0x4F5C4FE031 (.leaf 0x31CF) (.leaf 0x31D2)) (.node 0x4F5C4FE331 (.leaf 0x31E3) (.leaf 0x31D1))) (.node 0x4F5FEFA518 (.node 0x4F5D00A018 (.leaf 0x31C0) (.leaf 0x2F2F)) (.node 0x4F63A684BB (.leaf 0x2F13) (.leaf 0x266B))))) (nameTree_678)
def nameTree_680 : NameTree := .node 0x4FA03D17B4 (.node 0x4F9AEE796C (.node 0x4F9AE6796C (.node 0x4F9252191C (.leaf 0x1D0C5) (.node 0x4F9AE6656C (.leaf 0xD57) (.leaf 0x16B16))) (.node 0x4F9AEA796C (.node 0x4F9AEA656C (.leaf 0x16B17) (.leaf 0x16B08)) (.node 0x4F9AEE656C (.leaf 0x16B09) (.leaf 0x16B02)))) (.node 0x4F9AFA796C (.node 0x4F9AF4796C (.node 0x4F9AF4656C (.leaf 0x16B03) (.leaf 0x16B12)) (.node 0x4F9AFA656C (.leaf 0x16B13) (.leaf 0x16B06))) (.node 0x4F9AFC796C (.node 0x4F9AFC656C (.leaf 0x16B07) (.leaf 0x16B18)) (.node 0x4F9E897477 (.leaf 0x16B19) (.leaf 0x1D83D))))) (.node 0x4FA6440EB4 (.node 0x4FA1440EB4 (.node 0x4FA03D18B4 (.leaf 0x10B05) (.node 0x4FA0410EB4 (.leaf 0x10B03) (.leaf 0x10B07))) (.node 0x4FA57F7C1D (.node 0x4FA3440EB4 (.leaf 0x10B21) (.leaf 0x10B1C)) (.node 0x4FA6430EB4 (.leaf 0xABF5) (.leaf 0x10B15)))) (.node 0x4FAD430EB4 (.node 0x4FA7847543 (.node 0x4FA7490EB4 (.leaf 0x10B16) (.leaf 0x10B29)) (.node 0x4FAB7E891D (.leaf 0x1DA5C) (.leaf 0xABF4))) (.node 0x4FAD550EB4 (.node 0x4FAD4A0EB4 (.leaf 0x10B22) (.leaf 0x10B27)) (.node 0x4FAECD91C3 (.leaf 0x10B26) (.leaf 0x769)))))
def nameTree_681 : NameTree := .node 0x4FD2843F64 (.node 0x4FC65E163A (.node 0x4FC263033A (.node 0x4FBEA9F131 (.leaf 0xD4B) (.leaf 0xD42)) (.node 0x4FC4D74301 (.leaf 0x104A1) (.leaf 0x1E3))) (.node 0x4FC79D5567 (.node 0x4FC76C0D3A (.leaf 0x104A6) (.leaf 0x104A2)) (.node 0x4FC8240F25 (.leaf 0x1109B) (.leaf 0x2AEC)))) (.node 0x4FD42BCF95 (.node 0x4FD422AE77 (.node 0x4FD34E8D4C (.leaf 0x31C3) (.leaf 0x26E7)) (.node 0x4FD42BC895 (.leaf 0x1B00) (.leaf 0x118B6))) (.node 0x4FD42EBC95 (.node 0x4FD42CD095 (.leaf 0x118B5) (.leaf 0x118B7)) (.node 0x4FD431BC95 (.leaf 0x118B4) (.leaf 0x118AB))))
def nameTree_682 : NameTree := .node 0x4FBEA3EB31 (.node 0x4FB8550EB4 (.node 0x4FB7520EB4 (.node 0x4FB3440EB4 (.leaf 0x10B31) (.node 0x4FB3500EB4 (.leaf 0x10B1A) (.leaf 0x10B1D))) (.node 0x4FB77C8389 (.node 0x4FB7550EB4 (.leaf 0x10B13) (.leaf 0x10B12)) (.node 0x4FB7F1D855 (.leaf 0x2E2A) (.leaf 0x20B2)))) (.node 0x4FBE95E531 (.node 0x4FBD3394C2 (.node 0x4FB9440EB4 (.leaf 0x10B2A) (.leaf 0x10B32)) (.node 0x4FBE95DD31 (.leaf 0x1EBD) (.leaf 0xD3E))) (.node 0x4FBE99E131 (.node 0x4FBE95F131 (.leaf 0xD48) (.leaf 0xD4C)) (.node 0x4FBE9DE531 (.leaf 0xD47) (.leaf 0xD40))))) (nameTree_681)
def nameTree_683 : NameTree := .node 0x4FEEF012A6 (.node 0x4FE3CB30BC (.node 0x4FE3835264 (.node 0x4FE3833F64 (.leaf 0x29F7) (.leaf 0x31DF)) (.node 0x4FE3865264 (.leaf 0x31D8) (.leaf 0x31DE))) (.node 0x4FE6A477F0 (.node 0x4FE4A2D829 (.leaf 0x11AF5) (.leaf 0x26A1)) (.node 0x4FE76B9730 (.leaf 0x1C83) (.leaf 0x109E5)))) (.node 0x500E39B79D (.node 0x4FF362E8F4 (.node 0x4FF096E871 (.leaf 0x214F) (.leaf 0x12194)) (.node 0x500001D9B7 (.leaf 0xE005F) (.leaf 0xFCE8))) (.node 0x50131E6E16 (.node 0x500EFE4963 (.leaf 0x10198) (.leaf 0x929)) (.node 0x50159E3F40 (.leaf 0x10B52) (.leaf 0x1F4B5))))
def nameTree_684 : NameTree := .node 0x4FE2D8AA46 (.node 0x4FD443CA95 (.node 0x4FD43FBE95 (.node 0x4FD435CA95 (.leaf 0x118A6) (.node 0x4FD43AD095 (.leaf 0x118AC) (.leaf 0x118B8))) (.node 0x4FD441C495 (.node 0x4FD43FD095 (.leaf 0x118AF) (.leaf 0x118A7)) (.node 0x4FD443BC95 (.leaf 0x118A2) (.leaf 0x118A4)))) (.node 0x4FD8864F64 (.node 0x4FD8863F64 (.node 0x4FD443D095 (.leaf 0x118A5) (.leaf 0x118A3)) (.node 0x4FD8864C64 (.leaf 0x31C6) (.leaf 0x31CA))) (.node 0x4FDB8BF26B (.node 0x4FD8865264 (.leaf 0x31CD) (.leaf 0x31C5)) (.node 0x4FDD03E96A (.leaf 0xBF7) (.leaf 0xFD12))))) (nameTree_683)
def nameTree_685 : NameTree := .node 0x505F8040F4 (.node 0x5057A95C51 (.node 0x5051FA804C (.node 0x504F4F6A55 (.leaf 0x1D920) (.leaf 0x1F944)) (.node 0x505677E2EA (.leaf 0x1F764) (.leaf 0x1F623))) (.node 0x505A0080E5 (.node 0x5057A96251 (.leaf 0x11588) (.leaf 0x11586)) (.node 0x505B3DD1F9 (.leaf 0x1248B) (.leaf 0x1F406)))) (.node 0x506EA58C1B (.node 0x50637D4CF9 (.node 0x506029784B (.leaf 0x1F42C) (.leaf 0x1F3D5)) (.node 0x5066A2764B (.leaf 0x1F4A7) (.leaf 0x1F9DB))) (.node 0x506F74F958 (.node 0x506F7441AF (.leaf 0x10B5D) (.leaf 0x10043)) (.node 0x5073185E2A (.leaf 0x10044) (.leaf 0x1E13))))
def nameTree_686 : NameTree := .node 0x504CC7C9A7 (.node 0x5037025A12 (.node 0x502A7E7ABC (.node 0x50269B4370 (.leaf 0x1F76F) (.node 0x50269B5270 (.leaf 0x1F12B) (.leaf 0x1F12C))) (.node 0x5033530EC7 (.node 0x502FA55E28 (.leaf 0x1F715) (.leaf 0x2E33)) (.node 0x50337794C2 (.leaf 0xDB) (.leaf 0x129)))) (.node 0x5045415220 (.node 0x5041474520 (.node 0x5041436155 (.leaf 0x1F655) (.leaf 0x20)) (.node 0x504284614E (.leaf 0x1F5CF) (.leaf 0x1219D))) (.node 0x5049434B20 (.node 0x50485DE45F (.leaf 0x1F350) (.leaf 0x2010)) (.node 0x50494C4C20 (.leaf 0x26CF) (.leaf 0x1F48A))))) (nameTree_685)
def nameTree_687 : NameTree := .node 0x508ECD2BD9 (.node 0x508A438A16 (.node 0x508A377E16 (.node 0x508A2F8A16 (.leaf 0x1112D) (.leaf 0x1112F)) (.node 0x508A3D7E16 (.leaf 0x11129) (.leaf 0x11130))) (.node 0x508E1A9EC5 (.node 0x508B360D45 (.leaf 0x1112B) (.leaf 0x19F4)) (.node 0x508E1F1E01 (.leaf 0x11AE6) (.leaf 0x1F4B1)))) (.node 0x5093E66714 (.node 0x5093E26714 (.node 0x5093E16E14 (.leaf 0x1D99D) (.leaf 0x16F43)) (.node 0x5093E46714 (.leaf 0x16F01) (.leaf 0x16F0B))) (.node 0x5093E86714 (.node 0x5093E76714 (.leaf 0x16F07) (.leaf 0x16F1F)) (.node 0x5093EB6714 (.leaf 0x16F26) (.leaf 0x16F1E))))
def nameTree_688 : NameTree := .node 0x508A2F7E16 (.node 0x507F5DD962 (.node 0x507B70EB06 (.node 0x507A2989D7 (.leaf 0x10045) (.node 0x507B707E67 (.leaf 0x2FC0) (.leaf 0x10046))) (.node 0x507D5E3062 (.node 0x507D5CD45D (.leaf 0x10047) (.leaf 0x10049)) (.node 0x507D6BDA10 (.leaf 0x10048) (.leaf 0x1004A)))) (.node 0x5087853397 (.node 0x507F74F9AF (.node 0x507F749AB9 (.leaf 0x1004B) (.leaf 0x1004C)) (.node 0x5087812F97 (.leaf 0x1004D) (.leaf 0xF71))) (.node 0x50878F3D97 (.node 0x5087893797 (.leaf 0xF7B) (.leaf 0xF73)) (.node 0x5087954397 (.leaf 0xF7D) (.leaf 0xF75))))) (nameTree_687)
def nameTree_689 : NameTree := .node 0x50C652B7AD (.node 0x50B58C808C (.node 0x50AFA33DA4 (.node 0x50AECE346B (.leaf 0x81F) (.leaf 0xEAF)) (.node 0x50B3CFBB5E (.leaf 0x1F60B) (.leaf 0xA89F))) (.node 0x50BB8F3D69 (.node 0x50B694C19C (.leaf 0x21CD) (.leaf 0xFB80)) (.node 0x50BB8F4369 (.leaf 0x1058) (.leaf 0x1056)))) (.node 0x50CC51C4AD (.node 0x50C8082783 (.node 0x50C74C94C2 (.leaf 0x2464) (.leaf 0xF1)) (.node 0x50CB1FB786 (.leaf 0x109F) (.leaf 0x332E))) (.node 0x50D265B128 (.node 0x50CDD2931F (.leaf 0x2463) (.leaf 0x109D5)) (.node 0x50D2BB8BFB (.leaf 0xFD02) (.leaf 0x120A6))))
def nameTree_690 : NameTree := .node 0x50AEAA2EE8 (.node 0x5093F66714 (.node 0x5093F06714 (.node 0x5093ED6714 (.leaf 0x16F16) (.node 0x5093EE6714 (.leaf 0x16F04) (.leaf 0x16F10))) (.node 0x5093F36714 (.node 0x5093F16714 (.leaf 0x16F00) (.leaf 0x16F21)) (.node 0x5093F46714 (.leaf 0x16F3A) (.leaf 0x16F0A)))) (.node 0x50945F70E0 (.node 0x5093F86714 (.node 0x5093F76714 (.leaf 0x16F08) (.leaf 0x16F42)) (.node 0x5093FA6714 (.leaf 0x16F27) (.leaf 0x16F3B))) (.node 0x50985F873B (.node 0x5095D9F0FA (.leaf 0x2254) (.leaf 0x2A4F)) (.node 0x50AC7FF57C (.leaf 0x2E27) (.leaf 0x5F4))))) (nameTree_689)
def nameTree_691 : NameTree := .node 0x5120D7940A (.node 0x5110847152 (.node 0x510F30459E (.node 0x5109216E16 (.leaf 0x262D) (.leaf 0x10B53)) (.node 0x510F6327BD (.leaf 0x1D89E) (.leaf 0x3E))) (.node 0x511961FF77 (.node 0x51189BAB24 (.leaf 0x10E71) (.leaf 0x1AB8)) (.node 0x5120C90CE4 (.leaf 0x2700) (.leaf 0x2615)))) (.node 0x513045F488 (.node 0x5121C1EDE5 (.node 0x5121531DE0 (.leaf 0x29E1) (.leaf 0x21C0)) (.node 0x51300E7D6C (.leaf 0xD75) (.leaf 0x2BB5))) (.node 0x5133FF3F1F (.node 0x5133FF3E1F (.leaf 0x2610) (.leaf 0x1F170)) (.node 0x5133FF401F (.leaf 0x1F171) (.leaf 0x1F172))))
def nameTree_692 : NameTree := .node 0x510792FF81 (.node 0x50E4ADF292 (.node 0x50DE27915A (.node 0x50D9BCA508 (.leaf 0x12377) (.node 0x50DBCF7AFB (.leaf 0x2B62) (.leaf 0x120AE))) (.node 0x50E22CF59A (.node 0x50E062D7FC (.leaf 0x1FF9) (.leaf 0x1DCA)) (.node 0x50E3C28CFB (.leaf 0x2125) (.leaf 0x12378)))) (.node 0x50EFB7F698 (.node 0x50E70BABD0 (.node 0x50E4DD94C2 (.leaf 0x1BEF) (.leaf 0xF5)) (.node 0x50EDA376B1 (.leaf 0xFD17) (.leaf 0x16E5))) (.node 0x5101026846 (.node 0x50F3D46E62 (.leaf 0x2335) (.leaf 0x70D)) (.node 0x5102026228 (.leaf 0x1F78) (.leaf 0x1F41))))) (nameTree_691)
def nameTree_693 : NameTree := .node 0x5144F5B0E7 (.node 0x5133FF541F (.node 0x5133FF521F (.node 0x5133FF511F (.leaf 0x1F182) (.leaf 0x1F183)) (.node 0x5133FF531F (.leaf 0x1F184) (.leaf 0x1F185))) (.node 0x5133FF561F (.node 0x5133FF551F (.leaf 0x1F186) (.leaf 0x1F187)) (.node 0x5133FF571F (.leaf 0x1F188) (.leaf 0x1F189)))) (.node 0x514C06E2D9 (.node 0x5149AD163E (.node 0x5147972D47 (.leaf 0x10F9) (.leaf 0x16863)) (.node 0x514C06D6D9 (.leaf 0xA9BE) (.leaf 0x1133F))) (.node 0x514EB66B66 (.node 0x514CDABD97 (.leaf 0x11341) (.leaf 0x204E)) (.node 0x515212A69A (.leaf 0x115C3) (.leaf 0x221C))))
def nameTree_694 : NameTree := .node 0x5133FF501F (.node 0x5133FF481F (.node 0x5133FF441F (.node 0x5133FF421F (.leaf 0x1F173) (.node 0x5133FF431F (.leaf 0x1F174) (.leaf 0x1F175))) (.node 0x5133FF461F (.node 0x5133FF451F (.leaf 0x1F176) (.leaf 0x1F177)) (.node 0x5133FF471F (.leaf 0x1F178) (.leaf 0x1F179)))) (.node 0x5133FF4C1F (.node 0x5133FF4A1F (.node 0x5133FF491F (.leaf 0x1F17A) (.leaf 0x1F17B)) (.node 0x5133FF4B1F (.leaf 0x1F17C) (.leaf 0x1F17D))) (.node 0x5133FF4E1F (.node 0x5133FF4D1F (.leaf 0x1F17E) (.leaf 0x1F17F)) (.node 0x5133FF4F1F (.leaf 0x1F180) (.leaf 0x1F181))))) (nameTree_693)
def nameTree_695 : NameTree := .node 0x4D2FB6C586 (.node 0x4AF78AB40A (.node 0x49CC9B4AAA (.node 0x495B7A3F5A (.node 0x4922B7186A (nameTree_638) (nameTree_640)) (.node 0x49A6A3173D (nameTree_642) (nameTree_644))) (.node 0x4A4EF7A318 (.node 0x4A0046BDA3 (nameTree_645) (nameTree_647)) (.node 0x4AB2CB8E4D (nameTree_649) (nameTree_651)))) (.node 0x4BB68D1CA9 (.node 0x4B5D09D89D (.node 0x4B0E58DD94 (nameTree_652) (nameTree_654)) (.node 0x4B9F538E4D (nameTree_656) (nameTree_658))) (.node 0x4C4EFAA118 (.node 0x4BFAF90DF1 (nameTree_659) (nameTree_661)) (.node 0x4CA427633F (nameTree_663) (nameTree_665))))) (.node 0x4F8E7D5CAD (.node 0x4E94BA39B7 (.node 0x4DC6FD0670 (.node 0x4D582A9DEC (nameTree_666) (nameTree_668)) (.node 0x4E45641EEF (nameTree_670) (nameTree_672))) (.node 0x4F46ED2A94 (.node 0x4F05C4DE8A (nameTree_673) (nameTree_675)) (.node 0x4F56FC9918 (nameTree_677) (nameTree_679)))) (.node 0x5079733B10 (.node 0x4FD433C495 (.node 0x4FB2440EB4 (nameTree_680) (nameTree_682)) (.node 0x501D7489BC (nameTree_684) (nameTree_686))) (.node 0x50D7CF8BFB (.node 0x5093EC6714 (nameTree_688) (nameTree_690)) (.node 0x5133FF411F (nameTree_692) (nameTree_694)))))
def nameTree_696 : NameTree := .node 0x517988085E (.node 0x516A79932E (.node 0x515EBB8B08 (.node 0x5155496055 (.leaf 0x1F6AF) (.node 0x515E2CB37A (.leaf 0x1F991) (.leaf 0x1F930))) (.node 0x51619AE392 (.node 0x515F299DE2 (.leaf 0x29DB) (.leaf 0x751)) (.node 0x516870902E (.leaf 0x2555) (.leaf 0x10080)))) (.node 0x517188085E (.node 0x516CCE7A00 (.node 0x516BCE4A03 (.leaf 0x10095) (.leaf 0x1F490)) (.node 0x516CCED100 (.leaf 0x2001) (.leaf 0x2000))) (.node 0x5174E97BA8 (.node 0x517188165E (.leaf 0x1786) (.leaf 0x1788)) (.node 0x5176521780 (.leaf 0xFB51) (.leaf 0x320E))))) (.node 0x517E88165E (.node 0x517C87165E (.node 0x517988165E (.leaf 0x1781) (.node 0x517A20D233 (.leaf 0x1783) (.leaf 0xFD3))) (.node 0x517C99165E (.node 0x517C8E165E (.leaf 0x1784) (.leaf 0x178E)) (.node 0x517E88085E (.leaf 0x1789) (.leaf 0x1795)))) (.node 0x51822CA9B1 (.node 0x518188085E (.node 0x51811796FA (.leaf 0x1797) (.leaf 0x1D0CA)) (.node 0x518193165E (.leaf 0x179D) (.leaf 0x179E))) (.node 0x518288165E (.node 0x518288085E (.leaf 0x1D70) (.leaf 0x1790)) (.node 0x51831C1BC0 (.leaf 0x1792) (.leaf 0xFD1D)))))
def nameTree_697 : NameTree := .node 0x51A95E1BD8 (.node 0x51A258A06B (.node 0x519F75714E (.node 0x519D040245 (.leaf 0x16AF0) (.leaf 0x744)) (.node 0x51A200FDFB (.leaf 0x1F83D) (.leaf 0x2B3C))) (.node 0x51A515A446 (.node 0x51A2C32452 (.leaf 0x1230D) (.leaf 0x2339)) (.node 0x51A649CAF5 (.leaf 0x1D71B) (.leaf 0x24F3)))) (.node 0x51BD63B749 (.node 0x51B3D494C2 (.node 0x51AFC6ACE5 (.leaf 0x77B) (.leaf 0x1D6E9)) (.node 0x51B43DD4D8 (.leaf 0x1E7D) (.leaf 0x1F834))) (.node 0x51C55BF737 (.node 0x51C049226D (.leaf 0x1A5B) (.leaf 0x2B91)) (.node 0x51C7D79E47 (.leaf 0x8BB) (.leaf 0x1D8C2))))
def nameTree_698 : NameTree := .node 0x519CEFE95E (.node 0x5195845B27 (.node 0x51948D8F6B (.node 0x5190DB4E4D (.leaf 0x1244D) (.node 0x5192BD1DD5 (.leaf 0x20A8) (.leaf 0x2B8D))) (.node 0x5195805B27 (.node 0x5195805327 (.leaf 0x1230C) (.leaf 0xAA29)) (.node 0x5195806727 (.leaf 0xAA30) (.leaf 0xAA31)))) (.node 0x5195945727 (.node 0x5195885B27 (.node 0x519586ADF3 (.leaf 0xAA2C) (.leaf 0x318E)) (.node 0x51958E5727 (.leaf 0xAA2B) (.leaf 0xAA2E))) (.node 0x5196415609 (.node 0x519610FA5C (.leaf 0xAA32) (.leaf 0x1F51B)) (.node 0x51964394C2 (.leaf 0x146) (.leaf 0x169))))) (nameTree_697)
def nameTree_699 : NameTree := .node 0x51F6088CCE (.node 0x51F0198CCE (.node 0x51F0078CCE (.node 0x51EE0C8CCE (.leaf 0xE007F) (.leaf 0x1162F)) (.node 0x51F00E8CCE (.leaf 0x11612) (.leaf 0x1161C))) (.node 0x51F5088CCE (.node 0x51F2088CCE (.leaf 0x11617) (.leaf 0x11623)) (.node 0x51F5138CCE (.leaf 0x1162B) (.leaf 0x1162C)))) (.node 0x520C8794C2 (.node 0x51FC9895F9 (.node 0x51F6148CCE (.leaf 0x1161E) (.leaf 0x11618)) (.node 0x520C177416 (.leaf 0x12117) (.leaf 0x10B54))) (.node 0x521AA14325 (.node 0x52107DC3AE (.leaf 0x1EF9) (.leaf 0x1D351)) (.node 0x52220D0F9F (.leaf 0x1D146) (.leaf 0x10189))))
def nameTree_700 : NameTree := .node 0x51ED259861 (.node 0x51E4088CCE (.node 0x51D2E76D3C (.node 0x51CFF03C30 (.leaf 0x12131) (.node 0x51D057F537 (.leaf 0xFE96) (.leaf 0x8BC))) (.node 0x51DB559A1C (.node 0x51D7002CDD (.leaf 0xFBB0) (.leaf 0x1EE62)) (.node 0x51DF78866E (.leaf 0x11453) (.leaf 0xFC51)))) (.node 0x51E9088CCE (.node 0x51E6048CCE (.node 0x51E5088CCE (.leaf 0x11625) (.leaf 0x11614)) (.node 0x51E6088CCE (.leaf 0x1161A) (.leaf 0x11620))) (.node 0x51EC088CCE (.node 0x51EBD77A91 (.leaf 0x11611) (.leaf 0x1F31C)) (.node 0x51ED088CCE (.leaf 0x11616) (.leaf 0x1160F))))) (nameTree_699)
def nameTree_701 : NameTree := .node 0x523E2B1CFF (.node 0x523E2B18FF (.node 0x523E2B16FF (.node 0x523E2B15FF (.leaf 0x1D458) (.leaf 0x1D459)) (.node 0x523E2B17FF (.leaf 0x1D45A) (.leaf 0x1D45B))) (.node 0x523E2B1AFF (.node 0x523E2B19FF (.leaf 0x1D45C) (.leaf 0x1D45D)) (.node 0x523E2B1BFF (.leaf 0x1D45E) (.leaf 0x1D45F)))) (.node 0x523E2B20FF (.node 0x523E2B1EFF (.node 0x523E2B1DFF (.leaf 0x1D460) (.leaf 0x1D461)) (.node 0x523E2B1FFF (.leaf 0x1D462) (.leaf 0x1D463))) (.node 0x523E2B22FF (.node 0x523E2B21FF (.leaf 0x1D464) (.leaf 0x1D465)) (.node 0x523E2B23FF (.leaf 0x1D466) (.leaf 0x1D467))))
def nameTree_702 : NameTree := .node 0x523E2B14FF (.node 0x523E2B0BFF (.node 0x522C9E9B70 (.node 0x5225064EBC (.leaf 0xFC2F) (.node 0x5226EFEFA2 (.leaf 0x38A) (.leaf 0x7FA))) (.node 0x5237C2F687 (.node 0x52354CFBAB (.leaf 0xFBF5) (.leaf 0x1F68E)) (.node 0x523E2B0AFF (.leaf 0xE002A) (.leaf 0x1D44E)))) (.node 0x523E2B0FFF (.node 0x523E2B0DFF (.node 0x523E2B0CFF (.leaf 0x1D44F) (.leaf 0x1D450)) (.node 0x523E2B0EFF (.leaf 0x1D451) (.leaf 0x1D452))) (.node 0x523E2B12FF (.node 0x523E2B10FF (.leaf 0x1D453) (.leaf 0x1D454)) (.node 0x523E2B13FF (.leaf 0x1D456) (.leaf 0x1D457))))) (nameTree_701)
def nameTree_703 : NameTree := .node 0x52435D37F9 (.node 0x52429CA7FF (.node 0x524149648E (.node 0x52413EF4FF (.leaf 0x1244C) (.node 0x5241494E20 (.leaf 0xD7D8) (.leaf 0x26C6))) (.node 0x5241AB35A9 (.node 0x5241496AAC (.leaf 0x1F9E0) (.leaf 0x1F686)) (.node 0x5241BC4752 (.leaf 0x1F0D9) (.leaf 0x1D923)))) (.node 0x524331B74A (.node 0x524331AF4A (.node 0x52432F49E2 (.leaf 0x11D4) (.leaf 0xE31)) (.node 0x524331B34A (.leaf 0xEB0) (.leaf 0xEC0))) (.node 0x524331C34A (.node 0x524331BD4A (.leaf 0xEB4) (.leaf 0xEC2)) (.node 0x524331C74A (.leaf 0xEB8) (.leaf 0xEB6))))) (.node 0x5249456937 (.node 0x5245565B8E (.node 0x5245415A8E (.leaf 0x22A9) (.node 0x5245536A3C (.leaf 0x1F35E) (.leaf 0x1F457))) (.node 0x524661A403 (.node 0x52456199E5 (.leaf 0x2D8) (.leaf 0x1F5B5)) (.node 0x52491F041C (.leaf 0x1F3C4) (.leaf 0x5BE)))) (.node 0x524B231021 (.node 0x52494E4720 (.node 0x52494D6050 (.leaf 0x2648) (.leaf 0x2032)) (.node 0x5249699D98 (.leaf 0x1F48D) (.leaf 0x1F990))) (.node 0x524E1E7740 (.node 0x524B620203 (.leaf 0x5C0) (.leaf 0x1F983)) (.node 0x524F534520 (.leaf 0x11C60) (.leaf 0x1F339)))))
def nameTree_704 : NameTree := .node 0x52679C8B37 (.node 0x5264EF7441 (.node 0x5264EB7441 (.node 0x5264E87441 (.leaf 0xE04) (.leaf 0xA8EC)) (.node 0x5264ED7441 (.leaf 0xA8ED) (.leaf 0xA8EE))) (.node 0x5265A542A2 (.node 0x5264F37C41 (.leaf 0xA8EF) (.leaf 0xA8F0)) (.node 0x526737A193 (.leaf 0x1F305) (.leaf 0x1F5D7)))) (.node 0x5283F677FA (.node 0x527C926CC8 (.node 0x5279620BE0 (.leaf 0x2747) (.leaf 0x1D8E0)) (.node 0x527FA7AC7A (.leaf 0x1F664) (.leaf 0xA98A))) (.node 0x528B34C5E1 (.node 0x52856570C3 (.leaf 0x27DF) (.leaf 0x900)) (.node 0x528F9687EB (.leaf 0x10A91) (.leaf 0x157B))))
def nameTree_705 : NameTree := .node 0x52632C5AC9 (.node 0x52572A1542 (.node 0x5251233972 (.node 0x524F5765EA (.leaf 0x1F451) (.node 0x524F6897E5 (.leaf 0x2322) (.leaf 0x1F4DC))) (.node 0x5252662F37 (.node 0x52512D4972 (.leaf 0x6C5) (.leaf 0x6C9)) (.node 0x525468EE03 (.leaf 0x1F955) (.leaf 0x1F422)))) (.node 0x525CD5C7BB (.node 0x525BCEA89E (.node 0x52579CDE55 (.leaf 0x1D821) (.leaf 0x2669)) (.node 0x525BE383EF (.leaf 0xA972) (.leaf 0x1F487))) (.node 0x525FDF4DFE (.node 0x525CD5D3BB (.leaf 0x10370) (.leaf 0x10368)) (.node 0x52612C65C9 (.leaf 0x1F32F) (.leaf 0xE03))))) (nameTree_704)
def nameTree_706 : NameTree := .node 0x52EFA95484 (.node 0x52D058A403 (.node 0x52C8DA4AE3 (.node 0x52C08773F8 (.leaf 0x1D885) (.leaf 0x1F0D)) (.node 0x52D055E3E9 (.leaf 0x1211F) (.leaf 0x1D9F4))) (.node 0x52E64778B2 (.node 0x52D9FC27DD (.leaf 0x11458) (.leaf 0x1EE77)) (.node 0x52EFA761E0 (.leaf 0xFE43) (.leaf 0x2F3C)))) (.node 0x52FA98250D (.node 0x52F575D9B7 (.node 0x52F3233031 (.leaf 0x2F4D) (.leaf 0x1F83)) (.node 0x52F5E9940A (.leaf 0x1D810) (.leaf 0x2AFA))) (.node 0x530525B4F4 (.node 0x52FAA45D93 (.leaf 0x1CD2) (.leaf 0x2F60)) (.node 0x5309226E16 (.leaf 0x12302) (.leaf 0x10B48))))
def nameTree_707 : NameTree := .node 0x52BEBCCFD5 (.node 0x52A556FFCE (.node 0x529EAC73ED (.node 0x5291D633BC (.leaf 0x2317) (.node 0x52933672A8 (.leaf 0x3350) (.leaf 0x114C))) (.node 0x52A474F7DA (.node 0x52A05A8E31 (.leaf 0x1D92A) (.leaf 0x3202)) (.node 0x52A4E4244E (.leaf 0x1F28) (.leaf 0x1C0)))) (.node 0x52B3947546 (.node 0x52B1C12E2D (.node 0x52B1BFAC8E (.leaf 0xE2E) (.leaf 0x1D6F4)) (.node 0x52B1F8725B (.leaf 0x1F6B) (.leaf 0x2352))) (.node 0x52B3D213E6 (.node 0x52B3D20FE6 (.leaf 0x207C) (.leaf 0xAAE0)) (.node 0x52B3D219E6 (.leaf 0xABCF) (.leaf 0xAAE1))))) (nameTree_706)
def nameTree_708 : NameTree := .node 0x5348495020 (.node 0x5343609BEF (.node 0x533757ADA9 (.node 0x5336FF025F (.leaf 0x1F51) (.leaf 0x527)) (.node 0x533E623DA4 (.leaf 0xFB70) (.leaf 0x10B3B))) (.node 0x5345415420 (.node 0x53446C9418 (.leaf 0x2653) (.leaf 0x2C7A)) (.node 0x5345698793 (.leaf 0x1F4BA) (.leaf 0x1F3DC)))) (.node 0x534F5CEBB7 (.node 0x534C454420 (.node 0x534B88CBD9 (.leaf 0x1F6A2) (.leaf 0xFD5D)) (.node 0x534C82F0E7 (.leaf 0x1F6F7) (.leaf 0x204F))) (.node 0x5354632037 (.node 0x53516F8AF9 (.leaf 0x3183) (.leaf 0x1F54C)) (.node 0x53546A94EF (.leaf 0x26EB) (.leaf 0x1F52B))))
def nameTree_709 : NameTree := .node 0x53358E4A0F (.node 0x531797322F (.node 0x5311DA4193 (.node 0x530EC0A333 (.leaf 0x1F6E0) (.node 0x530F91D289 (.leaf 0x1D0A1) (.leaf 0x1B59))) (.node 0x531422B04B (.node 0x53141AB04B (.leaf 0x25EB) (.leaf 0x10B64)) (.node 0x53148BEE8D (.leaf 0x10B6F) (.leaf 0x17F8)))) (.node 0x53299127B0 (.node 0x53228FEE8D (.node 0x531F881B36 (.leaf 0x1D973) (.leaf 0x1FE8)) (.node 0x5325CFB317 (.leaf 0x17F7) (.leaf 0x120A4))) (.node 0x533041F783 (.node 0x532E2724F2 (.leaf 0x85A) (.leaf 0x1F73C)) (.node 0x53348E502D (.leaf 0x23D5) (.leaf 0x1F7A))))) (nameTree_708)
def nameTree_710 : NameTree := .node 0x539A7A76E3 (.node 0x537F0EB2DC (.node 0x5362EDE385 (.node 0x5358D7BFBB (.leaf 0x20D9) (.node 0x535FD2C7BB (.leaf 0x10357) (.leaf 0x10355))) (.node 0x53703E45F9 (.node 0x5369D73BF9 (.leaf 0x2CBB) (.leaf 0x1F33C)) (.node 0x5371212E96 (.leaf 0x1F413) (.leaf 0xFD5E)))) (.node 0x538B7FBE8C (.node 0x5386C94225 (.node 0x5384115BC6 (.leaf 0x27B5) (.leaf 0x1D08B)) (.node 0x538B2E2D90 (.leaf 0x4A0) (.leaf 0xE0039))) (.node 0x53901BF87F (.node 0x538D3E74EB (.leaf 0x1F7A3) (.leaf 0x102F0)) (.node 0x5390277544 (.leaf 0x6FC) (.leaf 0x1F632))))) (.node 0x53AFF11C60 (.node 0x53A79D464F (.node 0x539F01A67C (.leaf 0xFB81) (.node 0x53A13ED915 (.leaf 0xA4D) (.leaf 0xFCFB))) (.node 0x53AE9FB509 (.node 0x53A9952750 (.leaf 0xF81) (.leaf 0x1BC26)) (.node 0x53AEA80F87 (.leaf 0x11131) (.leaf 0x1F38E)))) (.node 0x53B820CF1D (.node 0x53B460E045 (.node 0x53B127EDDB (.leaf 0x24ED) (.leaf 0xFBEE)) (.node 0x53B820CE1D (.leaf 0x1103) (.leaf 0x2146))) (.node 0x53B820D41D (.node 0x53B820D31D (.leaf 0x2147) (.leaf 0x2148)) (.node 0x53B9572A24 (.leaf 0x2149) (.leaf 0x2A25)))))
def nameTree_711 : NameTree := .node 0x541C840E11 (.node 0x5415F62E4C (.node 0x540963C2AF (.node 0x54035D2CCE (.leaf 0xFCF8) (.leaf 0x1D8ED)) (.node 0x540D6F7A47 (.leaf 0xFB2C) (.leaf 0x22F3))) (.node 0x5416C2A56C (.node 0x54162853AC (.leaf 0x475) (.leaf 0x1FE)) (.node 0x5418B5E7E5 (.leaf 0x2285) (.leaf 0x16A69)))) (.node 0x542277B0EB (.node 0x542277AEEB (.node 0x541FC4EBA5 (.leaf 0x2CBA) (.leaf 0xFEDE)) (.node 0x542277AFEB (.leaf 0x1D200) (.leaf 0x1D201))) (.node 0x542277B2EB (.node 0x542277B1EB (.leaf 0x1D202) (.leaf 0x1D203)) (.node 0x542277B3EB (.leaf 0x1D204) (.leaf 0x1D205))))
def nameTree_712 : NameTree := .node 0x53FB91CBAA (.node 0x53D9C9183E (.node 0x53C7C3EC93 (.node 0x53BEAA523B (.leaf 0x1D0DF) (.node 0x53BEE81D1A (.leaf 0x2993) (.leaf 0x2BCE))) (.node 0x53D2C59C70 (.node 0x53D20705E8 (.leaf 0x1150) (.leaf 0x1D90B)) (.node 0x53D39BAC64 (.leaf 0x141) (.leaf 0x1D9EE)))) (.node 0x53EAC947CB (.node 0x53DD534E17 (.node 0x53DC763104 (.leaf 0x18A9) (.leaf 0x1D80F)) (.node 0x53E29176FF (.leaf 0xFC67) (.leaf 0x501))) (.node 0x53EE4DC585 (.node 0x53EAC9C538 (.leaf 0x1015F) (.leaf 0xA65D)) (.node 0x53F836F65E (.leaf 0x121EB) (.leaf 0x1F670))))) (nameTree_711)
def nameTree_713 : NameTree := .node 0x54389712FE (.node 0x54388F16FE (.node 0x54388F14FE (.node 0x54388F12FE (.leaf 0x84C) (.leaf 0x84D)) (.node 0x54388F15FE (.leaf 0x850) (.leaf 0x852))) (.node 0x54388F18FE (.node 0x54388F17FE (.leaf 0x853) (.leaf 0x84E)) (.node 0x54388F1EFE (.leaf 0x855) (.leaf 0x846)))) (.node 0x543D54D504 (.node 0x543D54C704 (.node 0x54389718FE (.leaf 0x84F) (.leaf 0x847)) (.node 0x543D54CF04 (.leaf 0x10C00) (.leaf 0x10C03))) (.node 0x543D5D1357 (.node 0x543D5D0F57 (.leaf 0x10C06) (.leaf 0x3070)) (.node 0x543D5D1757 (.leaf 0x3079) (.leaf 0x3073))))
def nameTree_714 : NameTree := .node 0x54388F11FE (.node 0x542E813BFF (.node 0x542680381B (.node 0x542277B5EB (.leaf 0x1D206) (.node 0x542277B6EB (.leaf 0x1D207) (.leaf 0x1D208))) (.node 0x542A7B4B1B (.node 0x54285B6018 (.leaf 0xDE7) (.leaf 0x5E1)) (.node 0x542B89421B (.leaf 0xDEC) (.leaf 0xDE8)))) (.node 0x54388F0BFE (.node 0x54388F06FE (.node 0x5431EA0F52 (.leaf 0xFC73) (.leaf 0x1F613)) (.node 0x54388F08FE (.leaf 0x841) (.leaf 0x843))) (.node 0x54388F0FFE (.node 0x54388F0CFE (.leaf 0x842) (.leaf 0x844)) (.node 0x54388F10FE (.leaf 0x84A) (.leaf 0x84B))))) (nameTree_713)
def nameTree_715 : NameTree := .node 0x543D681357 (.node 0x543D661757 (.node 0x543D660F57 (.node 0x543D632357 (.leaf 0x307B) (.leaf 0x3075)) (.node 0x543D661357 (.leaf 0x304B) (.leaf 0x3051))) (.node 0x543D662357 (.node 0x543D661D57 (.leaf 0x304D) (.leaf 0x3053)) (.node 0x543D680F57 (.leaf 0x304F) (.leaf 0x307E)))) (.node 0x543D690F57 (.node 0x543D681D57 (.node 0x543D681757 (.leaf 0x3081) (.leaf 0x307F)) (.node 0x543D682357 (.leaf 0x3082) (.leaf 0x3080))) (.node 0x543D691757 (.node 0x543D691357 (.leaf 0x306A) (.leaf 0x306D)) (.node 0x543D691D57 (.leaf 0x306B) (.leaf 0x306E))))
def nameTree_716 : NameTree := .node 0x543D631D57 (.node 0x543D620F57 (.node 0x543D5F1357 (.node 0x543D5D2357 (.leaf 0x307C) (.node 0x543D5F0F57 (.leaf 0x3076) (.leaf 0x3060))) (.node 0x543D5F1D57 (.node 0x543D5F1757 (.leaf 0x3067) (.leaf 0x3062)) (.node 0x543D5F2357 (.leaf 0x3069) (.leaf 0x3065)))) (.node 0x543D622357 (.node 0x543D621757 (.node 0x543D621357 (.leaf 0x304C) (.leaf 0x3052)) (.node 0x543D621D57 (.leaf 0x304E) (.leaf 0x3054))) (.node 0x543D631357 (.node 0x543D630F57 (.leaf 0x3050) (.leaf 0x306F)) (.node 0x543D631757 (.leaf 0x3078) (.leaf 0x3072))))) (nameTree_715)
def nameTree_717 : NameTree := .node 0x543D6E2357 (.node 0x543D6D1357 (.node 0x543D6B1757 (.node 0x543D6B0F57 (.leaf 0x306C) (.node 0x543D6B1357 (.leaf 0x3071) (.leaf 0x307A))) (.node 0x543D6B2357 (.node 0x543D6B1D57 (.leaf 0x3074) (.leaf 0x307D)) (.node 0x543D6D0F57 (.leaf 0x3077) (.leaf 0x3089)))) (.node 0x543D6E0F57 (.node 0x543D6D1D57 (.node 0x543D6D1757 (.leaf 0x308C) (.leaf 0x308A)) (.node 0x543D6D2357 (.leaf 0x308D) (.leaf 0x308B))) (.node 0x543D6E1757 (.node 0x543D6E1357 (.leaf 0x3055) (.leaf 0x305B)) (.node 0x543D6E1D57 (.leaf 0x3057) (.leaf 0x305D))))) (.node 0x543D720F57 (.node 0x543D6F1757 (.node 0x543D6F0F57 (.leaf 0x3059) (.node 0x543D6F1357 (.leaf 0x305F) (.leaf 0x3066))) (.node 0x543D6F2357 (.node 0x543D6F1D57 (.leaf 0x3061) (.leaf 0x3068)) (.node 0x543D712357 (.leaf 0x3064) (.leaf 0x3094)))) (.node 0x543D740F57 (.node 0x543D721757 (.node 0x543D721357 (.leaf 0x308F) (.leaf 0x3091)) (.node 0x543D721D57 (.leaf 0x3090) (.leaf 0x3092))) (.node 0x543D742357 (.node 0x543D741D57 (.leaf 0x3084) (.leaf 0x3088)) (.node 0x543D750F57 (.leaf 0x3086) (.leaf 0x3056)))))
def nameTree_718 : NameTree := .node 0x545E418600 (.node 0x5458344355 (.node 0x54569E0196 (.node 0x54556E9937 (.leaf 0x1F6D3) (.leaf 0x2644)) (.node 0x5457613775 (.leaf 0x1F71C) (.leaf 0xA743))) (.node 0x545BD68CAC (.node 0x54588086F9 (.leaf 0x1F36E) (.leaf 0x29D0)) (.node 0x545D9A4D55 (.leaf 0x1F50B) (.leaf 0x1F4EE)))) (.node 0x54662F5255 (.node 0x54659D75F4 (.node 0x546598D608 (.leaf 0x22A5) (.leaf 0x26B9)) (.node 0x5465A0F037 (.leaf 0x2613) (.leaf 0x1F689))) (.node 0x546CC12A4A (.node 0x54673286E5 (.leaf 0x1F6C3) (.leaf 0x1F3ED)) (.node 0x546D923797 (.leaf 0x1D910) (.leaf 0x2E18))))
def nameTree_719 : NameTree := .node 0x5455505D55 (.node 0x54416F99F9 (.node 0x543D752357 (.node 0x543D751757 (.leaf 0x305C) (.node 0x543D751D57 (.leaf 0x3058) (.leaf 0x305E))) (.node 0x5441434F20 (.node 0x543DB863B3 (.leaf 0x305A) (.leaf 0x22CA)) (.node 0x5441584920 (.leaf 0x1F32E) (.leaf 0x1F695)))) (.node 0x54494E5920 (.node 0x5447D205EE (.node 0x54454E5420 (.leaf 0x1F954) (.leaf 0x26FA)) (.node 0x5448361102 (.leaf 0x1F938) (.leaf 0x19F1))) (.node 0x5452414D20 (.node 0x544DC5F652 (.leaf 0x29FE) (.leaf 0x124CB)) (.node 0x5452554520 (.leaf 0x1F68A) (.leaf 0x22A8))))) (nameTree_718)
def nameTree_720 : NameTree := .node 0x54846CE68C (.node 0x548468E68C (.node 0x548466E68C (.node 0x548465EE8C (.leaf 0xD39) (.leaf 0xD08)) (.node 0x548467E68C (.leaf 0xD1C) (.leaf 0xD15))) (.node 0x54846AE68C (.node 0x548469E68C (.leaf 0xD32) (.leaf 0xD2E)) (.node 0x54846BF48C (.leaf 0xD28) (.leaf 0xD13)))) (.node 0x548471FA8C (.node 0x54846FE68C (.node 0x54846EE68C (.leaf 0xD2A) (.leaf 0xD30)) (.node 0x548470E68C (.leaf 0xD38) (.leaf 0xD24))) (.node 0x548475E68C (.node 0x548472E68C (.leaf 0xD0A) (.leaf 0xD35)) (.node 0x5484E05039 (.leaf 0xD2F) (.leaf 0x2991))))
def nameTree_721 : NameTree := .node 0x548464E68C (.node 0x54845DE68C (.node 0x5475914193 (.node 0x546FE7D350 (.leaf 0xE003D) (.node 0x547121F712 (.leaf 0x2646) (.leaf 0x1D60))) (.node 0x5482CC36CB (.node 0x547B709668 (.leaf 0x1F968) (.leaf 0x1657)) (.node 0x5482D436CB (.leaf 0x108E4) (.leaf 0x108F0)))) (.node 0x54845FE68C (.node 0x54845DFA8C (.node 0x54845DEE8C (.leaf 0xD06) (.leaf 0xD10)) (.node 0x54845EE68C (.leaf 0xD14) (.leaf 0xD2C))) (.node 0x548461EA8C (.node 0x548460E68C (.leaf 0xD1A) (.leaf 0xD26)) (.node 0x548463E68C (.leaf 0xD0F) (.leaf 0xD17))))) (nameTree_720)
def nameTree_722 : NameTree := .node 0x54C745F2DB (.node 0x54C745E7DB (.node 0x54C745E2DB (.node 0x54C559BD16 (.leaf 0x162) (.leaf 0x22DC)) (.node 0x54C745E4DB (.leaf 0x10C0B) (.leaf 0x10C13))) (.node 0x54C745ECDB (.node 0x54C745EBDB (.leaf 0x10C0F) (.leaf 0x10C1A)) (.node 0x54C745EEDB (.leaf 0x10C20) (.leaf 0x10C24)))) (.node 0x54C753E8DB (.node 0x54C745F4DB (.node 0x54C745F3DB (.leaf 0x10C3C) (.leaf 0x10C3E)) (.node 0x54C745F9DB (.leaf 0x10C45) (.leaf 0x10C18))) (.node 0x54CB4EE3DB (.node 0x54CB4CF4DB (.leaf 0x10C3F) (.leaf 0x10C21)) (.node 0x54CB4EE7DB (.leaf 0x10C28) (.leaf 0x10C2D))))
def nameTree_723 : NameTree := .node 0x54C12EE01E (.node 0x5497A4FD8F (.node 0x5490D8F6C3 (.node 0x5489C8B2FC (.leaf 0x1D83E) (.node 0x548DAFB6CC (.leaf 0x12199) (.leaf 0x1F3BF))) (.node 0x549390F97B (.node 0x549234F81F (.leaf 0x7A6) (.leaf 0x7AC)) (.node 0x54959AFB85 (.leaf 0x7A8) (.leaf 0x7AE)))) (.node 0x54B4AE7672 (.node 0x54A591C25E (.node 0x5499EC9FB7 (.leaf 0x7AA) (.leaf 0x834)) (.node 0x54B04A3B14 (.leaf 0x1DA26) (.leaf 0x25F6))) (.node 0x54BBA57860 (.node 0x54BB4C1C45 (.leaf 0xA75E) (.leaf 0x115F)) (.node 0x54BF42F3DB (.leaf 0x22FE) (.leaf 0x4DED))))) (nameTree_722)
def nameTree_724 : NameTree := .node 0x54ED8DFD4E (.node 0x54D7002CDD (.node 0x54CE8A9A3A (.node 0x54CB4EF9DB (.leaf 0x10C26) (.node 0x54CB53E8DB (.leaf 0x10C2A) (.leaf 0x10C41))) (.node 0x54D545EBDB (.node 0x54D293508B (.leaf 0x2AD1) (.leaf 0x2BA8)) (.node 0x54D619FE4C (.leaf 0x10C1C) (.leaf 0x1090)))) (.node 0x54EA4A1823 (.node 0x54E3110410 (.node 0x54DEB0DA35 (.leaf 0x1EE6C) (.leaf 0x27C6)) (.node 0x54E3417893 (.leaf 0x2C5) (.leaf 0x2368))) (.node 0x54ED8D014E (.node 0x54ED89054E (.leaf 0xFC22) (.leaf 0x196D)) (.node 0x54ED8D044E (.leaf 0x1965) (.leaf 0x1966))))) (.node 0x54ED97FD4E (.node 0x54ED93FD4E (.node 0x54ED8FFD4E (.leaf 0x195C) (.node 0x54ED92FD4E (.leaf 0x195E) (.leaf 0x1950))) (.node 0x54ED95FD4E (.node 0x54ED94FD4E (.leaf 0x1958) (.leaf 0x195B)) (.node 0x54ED970B4E (.leaf 0x1962) (.leaf 0x1968)))) (.node 0x54ED9D014E (.node 0x54ED9AFD4E (.node 0x54ED98FD4E (.leaf 0x1959) (.leaf 0x195F)) (.node 0x54ED9BFD4E (.leaf 0x1954) (.leaf 0x1956))) (.node 0x54ED9FFD4E (.node 0x54ED9DFD4E (.leaf 0x196A) (.leaf 0x195D)) (.node 0x54EDA0FD4E (.leaf 0x1951) (.leaf 0x1955)))))
def nameTree_725 : NameTree := .node 0x5552536050 (.node 0x554A1E6E97 (.node 0x553B91427D (.node 0x553AD97A41 (.leaf 0x36) (.leaf 0x1E0F)) (.node 0x5541434D91 (.leaf 0x32) (.leaf 0x220E))) (.node 0x554C496CAC (.node 0x554C2C4AEE (.leaf 0x11C5C) (.leaf 0x19F5)) (.node 0x5551920347 (.leaf 0x1F337) (.leaf 0xFF1B)))) (.node 0x5553D1C1B2 (.node 0x555271F537 (.node 0x55525A2598 (.leaf 0x1F45B) (.leaf 0x26EA)) (.node 0x5553486555 (.leaf 0x2649) (.leaf 0x1F363))) (.node 0x55572E3C30 (.node 0x55545FEB93 (.leaf 0x113E) (.leaf 0x26B2)) (.node 0x555E610351 (.leaf 0x1F72A) (.leaf 0xFBAB))))
def nameTree_726 : NameTree := .node 0x553A834B7D (.node 0x551DC4D4BA (.node 0x5506395E39 (.node 0x54FCC6B365 (.leaf 0x2F1C) (.node 0x5501D3993D (.leaf 0x2B30) (.leaf 0x2BA3))) (.node 0x550963DD4B (.node 0x55086450E8 (.leaf 0x1F885) (.leaf 0x476)) (.node 0x550963E74B (.leaf 0xAB32) (.leaf 0xAB3D)))) (.node 0x552EFD4AFE (.node 0x552A8AF823 (.node 0x551DE9937F (.leaf 0xFE5E) (.leaf 0x1F87)) (.node 0x552E8BFB6F (.leaf 0xFC03) (.leaf 0x1FE9))) (.node 0x55340A8936 (.node 0x5531E7FB9F (.leaf 0x11D1) (.leaf 0xFDA1)) (.node 0x553688387D (.leaf 0x1EE6) (.leaf 0x31))))) (nameTree_725)
def nameTree_727 : NameTree := .node 0x557F73A668 (.node 0x557F739268 (.node 0x557F58A618 (.node 0x557D81C96B (.leaf 0x15DF) (.leaf 0x22E4)) (.node 0x557F709668 (.leaf 0xFFA2) (.leaf 0x163D))) (.node 0x557F739A68 (.node 0x557F739668 (.leaf 0x1639) (.leaf 0x1636)) (.node 0x557F73A068 (.leaf 0x1638) (.leaf 0x1635)))) (.node 0x55877E9268 (.node 0x5586709668 (.node 0x557F9A9F5F (.leaf 0x1634) (.leaf 0x26D2)) (.node 0x5587709668 (.leaf 0x165E) (.leaf 0x15E5))) (.node 0x55877E9A68 (.node 0x55877E9668 (.leaf 0x166C) (.leaf 0x1669)) (.node 0x55877EA068 (.leaf 0x166B) (.leaf 0x1668))))
def nameTree_728 : NameTree := .node 0x557B709668 (.node 0x557069319F (.node 0x556EF61B18 (.node 0x5563F5DA14 (.leaf 0xA64C) (.node 0x556C9825FE (.leaf 0xABDC) (.leaf 0x2108))) (.node 0x557064319F (.node 0x556FE3F0FC (.leaf 0x1F842) (.leaf 0x11D46)) (.node 0x557069299F (.leaf 0x1205A) (.leaf 0x1205B)))) (.node 0x55706E3D9F (.node 0x55706B3A9F (.node 0x55706A299F (.leaf 0x1205D) (.leaf 0x12060)) (.node 0x55706E299F (.leaf 0x12061) (.leaf 0x12064))) (.node 0x557075319F (.node 0x5570702D9F (.leaf 0x12065) (.leaf 0x12068)) (.node 0x557AE42F3B (.leaf 0x1206A) (.leaf 0x1DD8))))) (nameTree_727)
def nameTree_729 : NameTree := .node 0x559161C458 (.node 0x55915DC458 (.node 0x559159C458 (.node 0x559158C458 (.leaf 0x110AA) (.leaf 0x110A7)) (.node 0x55915BC458 (.leaf 0x110A2) (.leaf 0x110A3))) (.node 0x55915FC458 (.node 0x55915EC458 (.leaf 0x110A9) (.leaf 0x110AE)) (.node 0x559160D858 (.leaf 0x1109E) (.leaf 0x11088)))) (.node 0x55975E0A10 (.node 0x5591EBFFFF (.node 0x559164C458 (.leaf 0x110AB) (.leaf 0x110A8)) (.node 0x55946B3969 (.leaf 0x2103) (.leaf 0x1F332))) (.node 0x559BF2FC29 (.node 0x5599EC9DAD (.leaf 0xAAF6) (.leaf 0x83E)) (.node 0x559BF6F729 (.leaf 0xAAF0) (.leaf 0xABEB))))
def nameTree_730 : NameTree := .node 0x559157C458 (.node 0x55914DC458 (.node 0x55912EC8AE (.node 0x5588AF1430 (.leaf 0x1667) (.node 0x558DF2FC6D (.leaf 0x12514) (.leaf 0x300B))) (.node 0x55914CCC58 (.node 0x55914CC458 (.leaf 0x2046) (.leaf 0x11084)) (.node 0x55914CD858 (.leaf 0x1108A) (.leaf 0x1108C)))) (.node 0x559153C458 (.node 0x55914FC458 (.node 0x55914EC458 (.leaf 0x110A5) (.leaf 0x11092)) (.node 0x559152C458 (.leaf 0x110A0) (.leaf 0x1108F))) (.node 0x559155C458 (.node 0x559154CC58 (.leaf 0x110AF) (.leaf 0x11086)) (.node 0x559156C458 (.leaf 0x11094) (.leaf 0x1108D))))) (nameTree_729)
def nameTree_731 : NameTree := .node 0x55F71F8AD8 (.node 0x55C61E9390 (.node 0x55AE28D2B9 (.node 0x559EFB45A8 (.leaf 0x3FD) (.node 0x55AB77AD99 (.leaf 0x1F313) (.leaf 0x268A))) (.node 0x55C4DA6CD1 (.node 0x55BABAA670 (.leaf 0x26CD) (.leaf 0x1D6E2)) (.node 0x55C53295B8 (.leaf 0x1F611) (.leaf 0x2C78)))) (.node 0x55E8791025 (.node 0x55DAFD2AA5 (.node 0x55C76BCBAF (.leaf 0x1BC73) (.leaf 0x1F4C2)) (.node 0x55E10A2DDD (.leaf 0x22CF) (.leaf 0x1EE6D))) (.node 0x55F39A619D (.node 0x55F39666F9 (.leaf 0x12007) (.leaf 0x2FC6)) (.node 0x55F3A15D9D (.leaf 0x2F7A) (.leaf 0x2F99))))) (.node 0x55F99AFA1F (.node 0x55F995FA1F (.node 0x55F7A1502D (.leaf 0x26FB) (.node 0x55F7A957F9 (.leaf 0x2F26) (.leaf 0x2F69))) (.node 0x55F997FA1F (.node 0x55F996FA1F (.leaf 0x1C13) (.leaf 0x1C06)) (.node 0x55F999FA1F (.leaf 0x1C0C) (.leaf 0x1C11)))) (.node 0x55F99FFA1F (.node 0x55F99DFA1F (.node 0x55F99BFA1F (.leaf 0x1C03) (.leaf 0x1C1D)) (.node 0x55F99EFA1F (.leaf 0x1C08) (.leaf 0x1C00))) (.node 0x55F9A1FA1F (.node 0x55F9A0FA1F (.leaf 0x1C1C) (.leaf 0x1C15)) (.node 0x55F9A3FA1F (.leaf 0x1C0D) (.leaf 0x1C0E)))))
def nameTree_732 : NameTree := .node 0x5642FDD312 (.node 0x5630A9EFD7 (.node 0x56286D89A8 (.node 0x5626D48ABA (.leaf 0x1F771) (.leaf 0x113F)) (.node 0x562A5DD1C9 (.leaf 0x1F742) (.leaf 0x2AE))) (.node 0x563E2D7DD5 (.node 0x5630CB992D (.leaf 0x2F7) (.leaf 0x16819)) (.node 0x563F21787E (.leaf 0x11C67) (.leaf 0x11C61)))) (.node 0x564311E712 (.node 0x5642FDE712 (.node 0x5642FDDB12 (.leaf 0x115AF) (.leaf 0x115B9)) (.node 0x564305DB12 (.leaf 0x115BB) (.leaf 0x115B1))) (.node 0x564AFBDD36 (.node 0x5643E6C7C4 (.leaf 0x115B3) (.leaf 0x1E75)) (.node 0x56502D8240 (.leaf 0x11C3E) (.leaf 0x11C68))))
def nameTree_733 : NameTree := .node 0x5624807D65 (.node 0x55FDA86189 (.node 0x55F9A9FA1F (.node 0x55F9A6FA1F (.leaf 0x1C1B) (.node 0x55F9A7FA1F (.leaf 0x1C20) (.leaf 0x1C0A))) (.node 0x55F9ACFA1F (.node 0x55F9AAFA1F (.leaf 0x1C1F) (.leaf 0x1C22)) (.node 0x55FDA4659D (.leaf 0x1C1A) (.leaf 0x2F37)))) (.node 0x5612904202 (.node 0x5605CC22A0 (.node 0x56052C711C (.leaf 0x2FC1) (.leaf 0x1093F)) (.node 0x56103B6B58 (.leaf 0xFDA4) (.leaf 0x681))) (.node 0x561833D014 (.node 0x5614F84963 (.leaf 0x1D147) (.leaf 0x920)) (.node 0x5620034360 (.leaf 0x1E922) (.leaf 0x1F38))))) (nameTree_732)
def nameTree_734 : NameTree := .node 0x56AFB04153 (.node 0x5693401079 (.node 0x5693400479 (.node 0x5693400079 (.leaf 0x430) (.leaf 0x44D)) (.node 0x5693400A79 (.leaf 0x438) (.leaf 0x43E))) (.node 0x56A7347601 (.node 0x569F1559C8 (.leaf 0x443) (.leaf 0x2560)) (.node 0x56AE252431 (.leaf 0x2619) (.leaf 0x3214)))) (.node 0x56B94365C9 (.node 0x56B2455D0B (.node 0x56AFB9AB32 (.leaf 0x1D8E1) (.leaf 0x1D6FA)) (.node 0x56B44EDF1B (.leaf 0xFF0B) (.leaf 0x22B0))) (.node 0x56BF7E9819 (.node 0x56BF096901 (.leaf 0xFC32) (.leaf 0x1D0E4)) (.node 0x56C064A33A (.leaf 0x1DB1) (.leaf 0xABEC))))
def nameTree_735 : NameTree := .node 0x56933FFC79 (.node 0x567DBCFA13 (.node 0x566991A5C8 (.node 0x5658DE6253 (.leaf 0x11455) (.node 0x565FFDC29F (.leaf 0x11454) (.leaf 0x1690A))) (.node 0x5678B1FC41 (.node 0x567056CC48 (.leaf 0x1B001) (.leaf 0x16910)) (.node 0x567C74F286 (.leaf 0x267) (.leaf 0x1FA2)))) (.node 0x568E67833F (.node 0x56897F733B (.node 0x5687DE8EE4 (.leaf 0x1210F) (.leaf 0x2C0B)) (.node 0x568DB4203B (.leaf 0xA9) (.leaf 0xFE44))) (.node 0x56921CB1E1 (.node 0x56921CB0E1 (.leaf 0x2492) (.leaf 0x10A8A)) (.node 0x56921CB2E1 (.leaf 0x10A86) (.leaf 0x10A8F))))) (nameTree_734)
def nameTree_736 : NameTree := .node 0x574000F610 (.node 0x5714D1E472 (.node 0x57139AAF0D (.node 0x571375CEDB (.leaf 0x1DA45) (.leaf 0xD7F4)) (.node 0x5714D1DE72 (.leaf 0x249) (.leaf 0x1118B))) (.node 0x5718A634F8 (.node 0x571640484A (.leaf 0x11189) (.leaf 0x2AF1)) (.node 0x573ECB992D (.leaf 0x2962) (.leaf 0x16822)))) (.node 0x574000FA10 (.node 0x574000F810 (.node 0x574000F710 (.leaf 0x1D68A) (.leaf 0x1D68B)) (.node 0x574000F910 (.leaf 0x1D68C) (.leaf 0x1D68D))) (.node 0x574000FC10 (.node 0x574000FB10 (.leaf 0x1D68E) (.leaf 0x1D68F)) (.node 0x574000FD10 (.leaf 0x1D690) (.leaf 0x1D691))))
def nameTree_737 : NameTree := .node 0x570E24C544 (.node 0x56E5ABB4A8 (.node 0x56D4966D34 (.node 0x56CC809805 (.leaf 0x1D67) (.node 0x56D2BA2058 (.leaf 0x3277) (.leaf 0x1F5DA))) (.node 0x56E408EFE4 (.node 0x56DE9030EF (.leaf 0x1883) (.leaf 0xFDAB)) (.node 0x56E56C8FED (.leaf 0x2E17) (.leaf 0x3F)))) (.node 0x56F59D6132 (.node 0x56F59A63F4 (.node 0x56F3A15132 (.leaf 0x1C84) (.leaf 0x2F65)) (.node 0x56F59D60DB (.leaf 0x2F8C) (.leaf 0x2F0B))) (.node 0x57049A6346 (.node 0x56F79B29EF (.leaf 0x2FBE) (.leaf 0xE003B)) (.node 0x5705B1F190 (.leaf 0x2F2E) (.leaf 0x1F60C))))) (nameTree_736)
def nameTree_738 : NameTree := .node 0x5740010D10 (.node 0x5740010510 (.node 0x5740010110 (.node 0x574000FF10 (.leaf 0x1D692) (.node 0x5740010010 (.leaf 0x1D693) (.leaf 0x1D694))) (.node 0x5740010310 (.node 0x5740010210 (.leaf 0x1D695) (.leaf 0x1D696)) (.node 0x5740010410 (.leaf 0x1D697) (.leaf 0x1D698)))) (.node 0x5740010910 (.node 0x5740010710 (.node 0x5740010610 (.leaf 0x1D699) (.leaf 0x1D69A)) (.node 0x5740010810 (.leaf 0x1D69B) (.leaf 0x1D69C))) (.node 0x5740010B10 (.node 0x5740010A10 (.leaf 0x1D69D) (.leaf 0x1D69E)) (.node 0x5740010C10 (.leaf 0x1D69F) (.leaf 0x1D6A0))))) (.node 0x57432F5A3A (.node 0x5740DEB02B (.node 0x5740010E10 (.leaf 0x1D6A1) (.node 0x5740010F10 (.leaf 0x1D6A2) (.leaf 0x1D6A3))) (.node 0x5742E7A92B (.node 0x5742DAB42B (.leaf 0x16B3) (.leaf 0x16E0)) (.node 0x5742EDAA2B (.leaf 0x16B6) (.leaf 0x16A7)))) (.node 0x5746E8B42B (.node 0x5744DEB42B (.node 0x5744DAB42B (.leaf 0x2AFF) (.leaf 0x16B8)) (.node 0x5746E7A92B (.leaf 0x16C4) (.leaf 0x16DD))) (.node 0x574A87C1C7 (.node 0x5748FB141F (.leaf 0x16E1) (.leaf 0x25C8)) (.node 0x574A8BC5C7 (.leaf 0x167D) (.leaf 0x1677)))))
def nameTree_739 : NameTree := .node 0x578D4811F6 (.node 0x578D480DF6 (.node 0x578D480BF6 (.node 0x578013B749 (.leaf 0x6DE) (.leaf 0x10183)) (.node 0x578D480CF6 (.leaf 0x1340D) (.leaf 0x1340E))) (.node 0x578D480FF6 (.node 0x578D480EF6 (.leaf 0x1340F) (.leaf 0x13410)) (.node 0x578D4810F6 (.leaf 0x13411) (.leaf 0x13412)))) (.node 0x578D490BF6 (.node 0x578D4813F6 (.node 0x578D4812F6 (.leaf 0x13413) (.leaf 0x13416)) (.node 0x578D490AF6 (.leaf 0x13417) (.leaf 0x13418))) (.node 0x578D490DF6 (.node 0x578D490CF6 (.leaf 0x13419) (.leaf 0x1341A)) (.node 0x578D490EF6 (.leaf 0x1341B) (.leaf 0x1341C))))
def nameTree_740 : NameTree := .node 0x577F581DFF (.node 0x575BCADDAC (.node 0x57504E2BF9 (.node 0x574A95CFC7 (.leaf 0x1679) (.node 0x574E7059D1 (.leaf 0x167B) (.leaf 0x1C1))) (.node 0x5754DDD767 (.node 0x57545FCDF9 (.leaf 0x16EF) (.leaf 0x22C8)) (.node 0x5755ABFE91 (.leaf 0x2007) (.leaf 0xFED1)))) (.node 0x57660D2DF1 (.node 0x5765BDB982 (.node 0x576000C6E7 (.leaf 0x226C) (.leaf 0x1681A)) (.node 0x5766032DF1 (.leaf 0x1F78A) (.leaf 0x1074))) (.node 0x576DB61AE1 (.node 0x576990EAF9 (.leaf 0x1072) (.leaf 0x2603)) (.node 0x577A68F6EE (.leaf 0x1F880) (.leaf 0x1D192))))) (nameTree_739)
def nameTree_741 : NameTree := .node 0x57A0CEBEC2 (.node 0x57907600F6 (.node 0x578D4B0CF6 (.node 0x578D4B0BF6 (.leaf 0x1342C) (.leaf 0x1342D)) (.node 0x578F9477B8 (.leaf 0x1342E) (.leaf 0x685))) (.node 0x57967E9E7C (.node 0x57955213BD (.leaf 0x12255) (.leaf 0x72D)) (.node 0x579BEF7923 (.leaf 0x2181) (.leaf 0x1F0DD)))) (.node 0x57B8801ABB (.node 0x57A95C9850 (.node 0x57A5777C1D (.leaf 0x1BE6) (.leaf 0xABF9)) (.node 0x57A9629E50 (.leaf 0x11589) (.leaf 0x11587))) (.node 0x57D667DB4F (.node 0x57D01D345C (.leaf 0x237C) (.leaf 0x5E3)) (.node 0x57D667DF4F (.leaf 0x16F54) (.leaf 0x16F5D))))
def nameTree_742 : NameTree := .node 0x578D4B0AF6 (.node 0x578D4A0CF6 (.node 0x578D4912F6 (.node 0x578D4910F6 (.leaf 0x1341D) (.node 0x578D4911F6 (.leaf 0x1341E) (.leaf 0x1341F))) (.node 0x578D4A0AF6 (.node 0x578D4913F6 (.leaf 0x13420) (.leaf 0x13421)) (.node 0x578D4A0BF6 (.leaf 0x13422) (.leaf 0x13423)))) (.node 0x578D4A10F6 (.node 0x578D4A0EF6 (.node 0x578D4A0DF6 (.leaf 0x13424) (.leaf 0x13425)) (.node 0x578D4A0FF6 (.leaf 0x13426) (.leaf 0x13427))) (.node 0x578D4A12F6 (.node 0x578D4A11F6 (.leaf 0x13428) (.leaf 0x13429)) (.node 0x578D4A13F6 (.leaf 0x1342A) (.leaf 0x1342B))))) (nameTree_741)
def nameTree_743 : NameTree := .node 0x58256A040C (.node 0x5821C69535 (.node 0x5814B32B4B (.node 0x5813126E16 (.leaf 0xFED3) (.leaf 0x10B49)) (.node 0x581F5A5CED (.leaf 0xA645) (.leaf 0x115BE))) (.node 0x5824AC2B4B (.node 0x58225063EE (.leaf 0x102F3) (.leaf 0x1F72D)) (.node 0x582541D2F0 (.leaf 0xA661) (.leaf 0xFEA3)))) (.node 0x5840018EA4 (.node 0x583A6D0554 (.node 0x5828153042 (.leaf 0xFEEB) (.leaf 0x16F78)) (.node 0x583C019057 (.leaf 0x1D716) (.leaf 0xE0))) (.node 0x5846B975C0 (.node 0x5840AAFE2D (.leaf 0x103) (.leaf 0x1681F)) (.node 0x5846B97BC0 (.leaf 0xF78) (.leaf 0xF76))))
def nameTree_744 : NameTree := .node 0x581151760C (.node 0x57DDE7DEC1 (.node 0x57D667EF4F (.node 0x57D667E84F (.leaf 0x16F61) (.node 0x57D667E94F (.leaf 0x16F7D) (.leaf 0x16F59))) (.node 0x57D667F34F (.node 0x57D667F14F (.leaf 0x16F6A) (.leaf 0x16F5C)) (.node 0x57DAD9F0C1 (.leaf 0x16F71) (.leaf 0x5F0)))) (.node 0x57EF7D07CD (.node 0x57E660BE20 (.node 0x57E3A47626 (.leaf 0x5F2) (.leaf 0x1F0A4)) (.node 0x57E9205A0C (.leaf 0x1D356) (.leaf 0xFE91))) (.node 0x57F1AFB569 (.node 0x57EF7D1BCD (.leaf 0x121B9) (.leaf 0x121E5)) (.node 0x580762C04D (.leaf 0x1F0B4) (.leaf 0x1E8D1))))) (nameTree_743)
def nameTree_745 : NameTree := .node 0x58B14617C9 (.node 0x589DFD580C (.node 0x5898A91A4D (.node 0x5890F78935 (.leaf 0x12147) (.leaf 0x614)) (.node 0x589DD526F0 (.leaf 0x1F89F) (.leaf 0xFEC3))) (.node 0x58AE9D19F8 (.node 0x58A64AE353 (.leaf 0xFE97) (.leaf 0x1F45)) (.node 0x58AF3719F1 (.leaf 0x11133) (.leaf 0x18A7)))) (.node 0x58B6458EA4 (.node 0x58B2459057 (.node 0x58B215E60C (.leaf 0x11D51) (.leaf 0xFB6C)) (.node 0x58B5412AC9 (.leaf 0xE8) (.leaf 0x11D56))) (.node 0x58BAF6B2B6 (.node 0x58B64F21C9 (.leaf 0x115) (.leaf 0x11D52)) (.node 0x58C57F9893 (.leaf 0x279C) (.leaf 0x26BE))))
def nameTree_746 : NameTree := .node 0x588BA93D1A (.node 0x5863730631 (.node 0x58581C669E (.node 0x5851F83FAF (.leaf 0x8D4) (.node 0x58562B5E55 (.leaf 0x779) (.leaf 0x59F))) (.node 0x585F106F74 (.node 0x58584E83B3 (.leaf 0x1D06A) (.leaf 0xE002B)) (.node 0x5860A6F6F2 (.leaf 0x16829) (.leaf 0x2A27)))) (.node 0x5878E58DF3 (.node 0x586F912B30 (.node 0x586EC3DF5E (.leaf 0x10130) (.leaf 0x294D)) (.node 0x5875CC3C0C (.leaf 0x1D30A) (.leaf 0xFB58))) (.node 0x588394A012 (.node 0x587C68E04E (.leaf 0x44C) (.leaf 0x16B43)) (.node 0x588434CCE1 (.leaf 0x1680C) (.leaf 0x10A94))))) (nameTree_745)
def nameTree_747 : NameTree := .node 0x590C552C4D (.node 0x58FE5BB13A (.node 0x58F19B5B95 (.node 0x58F1678EA4 (.leaf 0xA924) (.leaf 0x11F)) (.node 0x58F38599C6 (.leaf 0xBE6) (.leaf 0x1047C))) (.node 0x590126BAF9 (.node 0x58FF84C94D (.leaf 0x1D9A8) (.leaf 0x2B2B)) (.node 0x5907A31EA0 (.leaf 0x1FC2) (.leaf 0xFECC)))) (.node 0x59142AD02F (.node 0x59142ACD2F (.node 0x59138E1486 (.leaf 0xFEB5) (.leaf 0x1DA1C)) (.node 0x59142ACE2F (.leaf 0x16F9A) (.leaf 0x16F9B))) (.node 0x59142AD22F (.node 0x59142AD12F (.leaf 0x16F9C) (.leaf 0x16F9D)) (.node 0x59142AD42F (.leaf 0x16F9E) (.leaf 0x16F9F))))
def nameTree_748 : NameTree := .node 0x58EA0B4C5C (.node 0x58D67F1EC9 (.node 0x58D03ABB0C (.node 0x58C8BC9071 (.leaf 0x2468) (.node 0x58CDC60CB3 (.leaf 0x2F58) (.leaf 0xFFBA))) (.node 0x58D23E0CB3 (.node 0x58D0860CB3 (.leaf 0xFEF3) (.leaf 0xFFBB)) (.node 0x58D39E0CB3 (.leaf 0xFFBD) (.leaf 0xFFBC)))) (.node 0x58E0AFB559 (.node 0x58DA1ED0F0 (.node 0x58D98528CF (.leaf 0x6E2) (.leaf 0x1F923)) (.node 0x58DEE3A078 (.leaf 0xFEC7) (.leaf 0x24FF))) (.node 0x58E91DEB06 (.node 0x58E357C20D (.leaf 0x2471) (.leaf 0x1109)) (.node 0x58EA0B445C (.leaf 0x2750) (.leaf 0xA922))))) (nameTree_747)
def nameTree_749 : NameTree := .node 0x59595DC7A6 (.node 0x594F94C522 (.node 0x59492B2197 (.node 0x59433C05F7 (.leaf 0xFD80) (.leaf 0x2BC8)) (.node 0x594CE3427D (.leaf 0xC4D) (.leaf 0xFC6))) (.node 0x5957383966 (.node 0x5951BC9CDA (.leaf 0xA703) (.leaf 0xFB40)) (.node 0x5958CFC37E (.leaf 0x2037) (.leaf 0x12529)))) (.node 0x5960CE18C3 (.node 0x595EE866F7 (.node 0x5959D32AE5 (.leaf 0xFDC4) (.leaf 0x1F6B2)) (.node 0x596005904D (.leaf 0x2594) (.leaf 0x16836))) (.node 0x5960D918C3 (.node 0x5960D418C3 (.leaf 0xAA35) (.leaf 0xAA34)) (.node 0x5960DB18C3 (.leaf 0xAA36) (.leaf 0xAA33))))
def nameTree_750 : NameTree := .node 0x5942404A20 (.node 0x59206B77A7 (.node 0x59178C2260 (.node 0x59178C1660 (.leaf 0x11CB3) (.node 0x59178C1C60 (.leaf 0x11CB1) (.leaf 0x11CB4))) (.node 0x591F6F7CA8 (.node 0x591D71AB00 (.leaf 0x11CB2) (.leaf 0x25E5)) (.node 0x591F7A7D1D (.leaf 0x1F759) (.leaf 0x1F755)))) (.node 0x592C898EA4 (.node 0x592501BF0C (.node 0x592501BD0C (.leaf 0x2974) (.leaf 0x2D41)) (.node 0x5928899057 (.leaf 0x2D35) (.leaf 0xEC))) (.node 0x59358886D2 (.node 0x59302A2E45 (.leaf 0x12D) (.leaf 0x1F568)) (.node 0x5939BE7ABF (.leaf 0x2061) (.leaf 0x246D))))) (nameTree_749)
def nameTree_751 : NameTree := .node 0x59D9EF9057 (.node 0x59C4EA4F02 (.node 0x59BC5E9057 (.node 0x59B02088CE (.leaf 0x12039) (.leaf 0xFB88)) (.node 0x59C03676DE (.leaf 0x1F9) (.leaf 0x1F87D))) (.node 0x59D03B268A (.node 0x59CEC6AB65 (.leaf 0x1251F) (.leaf 0xFC92)) (.node 0x59D94538E5 (.leaf 0x1DA42) (.leaf 0x1F966)))) (.node 0x59EFA8599D (.node 0x59DDEF8EA4 (.node 0x59DAA7B715 (.leaf 0xF2) (.leaf 0x1F58B)) (.node 0x59EF9856D6 (.leaf 0x14F) (.leaf 0x2FCA))) (.node 0x59F798569D (.node 0x59EFAB569D (.leaf 0x2F03) (.leaf 0x2FAA)) (.node 0x59F79B522D (.leaf 0x2F5A) (.leaf 0x2F1A))))
def nameTree_752 : NameTree := .node 0x59A4841832 (.node 0x5984127982 (.node 0x5970204160 (.node 0x596973A2E0 (.leaf 0x11A00) (.node 0x596B058D4D (.leaf 0x11215) (.leaf 0x16826))) (.node 0x59815AE9A1 (.node 0x59811BE29E (.leaf 0x1D12D) (.leaf 0x1D0C9)) (.node 0x5983A486D0 (.leaf 0x324B) (.leaf 0x6F5)))) (.node 0x59955CCA95 (.node 0x598D620F83 (.node 0x5989A393D0 (.leaf 0x1E9C) (.leaf 0x6F4)) (.node 0x59927C3760 (.leaf 0x1D17E) (.leaf 0xFD65))) (.node 0x59A22DB7D5 (.node 0x599ECFACD6 (.leaf 0x1B44) (.leaf 0x122AA)) (.node 0x59A3626D43 (.leaf 0x275B) (.leaf 0x1225C))))) (nameTree_751)
def nameTree_753 : NameTree := .node 0x54CB4EF4DB (.node 0x5354FA7998 (.node 0x524031A550 (.node 0x51CFA380F3 (.node 0x518EE7B5F3 (nameTree_696) (nameTree_698)) (.node 0x52247B6693 (nameTree_700) (nameTree_702))) (.node 0x528FDAA547 (.node 0x524F5764E5 (nameTree_703) (nameTree_705)) (.node 0x530A8B6190 (nameTree_707) (nameTree_709)))) (.node 0x543D692357 (.node 0x542277B4EB (.node 0x53BDCBD2DA (nameTree_710) (nameTree_712)) (.node 0x543D5D1D57 (nameTree_714) (nameTree_716))) (.node 0x546EA79EEE (.node 0x543D751357 (nameTree_717) (nameTree_719)) (.node 0x5486701008 (nameTree_721) (nameTree_723))))) (.node 0x574000FE10 (.node 0x559E1DA5FB (.node 0x555FDB689A (.node 0x54EF9E597F (nameTree_724) (nameTree_726)) (.node 0x55877EA668 (nameTree_728) (nameTree_730))) (.node 0x5652DF5553 (.node 0x55F9A5FA1F (nameTree_731) (nameTree_733)) (.node 0x56C1143465 (nameTree_735) (nameTree_737)))) (.node 0x584A3D3052 (.node 0x578D490FF6 (.node 0x574A8FC9C7 (nameTree_738) (nameTree_740)) (.node 0x57D667E34F (nameTree_742) (nameTree_744))) (.node 0x59178C1260 (.node 0x58C64AB7AD (nameTree_746) (nameTree_748)) (.node 0x5966A32B0F (nameTree_750) (nameTree_752)))))
def nameTree_754 : NameTree := .node 0x5A6C7E392C (.node 0x5A1E718451 (.node 0x5A0B0EE58C (.node 0x5A02B583B3 (.leaf 0x2F8E) (.node 0x5A03A95232 (.leaf 0x109D) (.leaf 0x2FD5))) (.node 0x5A13FDDF95 (.node 0x5A1046BDA3 (.leaf 0xFE4F) (.leaf 0xA811)) (.node 0x5A147A6A6A (.leaf 0x324) (.leaf 0x104A7)))) (.node 0x5A416C30EF (.node 0x5A2FF9A8DB (.node 0x5A20838C03 (.leaf 0x1F757) (.leaf 0x2624)) (.node 0x5A3954E7A9 (.leaf 0x2227) (.leaf 0x591))) (.node 0x5A5E1D40E3 (.node 0x5A43C28F29 (.leaf 0x1F98E) (.leaf 0xA73B)) (.node 0x5A6C7E352C (.leaf 0x1F64E) (.leaf 0x11C00))))) (.node 0x5A75F76992 (.node 0x5A6C7E492C (.node 0x5A6C7E3D2C (.leaf 0x11C0A) (.node 0x5A6C7E432C (.leaf 0x11C02) (.leaf 0x11C0C))) (.node 0x5A74725CF9 (.node 0x5A6CBF31F1 (.leaf 0x11C04) (.leaf 0x16844)) (.node 0x5A747262F9 (.leaf 0xD0C) (.leaf 0xD0B)))) (.node 0x5A8B559057 (.node 0x5A7CABE6E5 (.node 0x5A75F82557 (.leaf 0x2569) (.leaf 0x16811)) (.node 0x5A84766352 (.leaf 0xFF61) (.leaf 0x112C7))) (.node 0x5A8F558EA4 (.node 0x5A8E4D5580 (.leaf 0xF9) (.leaf 0x3210)) (.node 0x5A9285BC19 (.leaf 0x16D) (.leaf 0x2559)))))
def nameTree_755 : NameTree := .node 0x5AEABE425C (.node 0x5AD7002DDD (.node 0x5ACF7DE53C (.node 0x5ACC2E6A8A (.leaf 0x109CA) (.leaf 0xFC95)) (.node 0x5AD2F56B49 (.leaf 0x1F93E) (.leaf 0x1225D))) (.node 0x5AE37ADE70 (.node 0x5ADE8AEB86 (.leaf 0x1EE6E) (.leaf 0x11644)) (.node 0x5AE9DE8AFB (.leaf 0x16821) (.leaf 0x16866)))) (.node 0x5AF77C77B8 (.node 0x5AF67C77B8 (.node 0x5AEFA15D9D (.leaf 0x172) (.leaf 0x2F29)) (.node 0x5AF74C996D (.leaf 0xB2D) (.leaf 0x1A95))) (.node 0x5AF87C77B8 (.node 0x5AF87877B8 (.leaf 0xB1B) (.leaf 0xB21)) (.node 0x5AFB792538 (.leaf 0xB27) (.leaf 0x20E))))
def nameTree_756 : NameTree := .node 0x5AC766643C (.node 0x5AB19196B7 (.node 0x5A9C6338AB (.node 0x5A9747788A (.leaf 0x123) (.node 0x5A99EC96F5 (.leaf 0x23EA) (.leaf 0x831))) (.node 0x5AAD0AB45C (.node 0x5AAB4D124C (.leaf 0x1104) (.leaf 0x11A35)) (.node 0x5AAF987FCB (.leaf 0x2348) (.leaf 0x1F7A2)))) (.node 0x5AB4065DC9 (.node 0x5AB4064FC9 (.node 0x5AB3FF751B (.leaf 0x29D) (.leaf 0xFC3B)) (.node 0x5AB40653C9 (.leaf 0x904) (.leaf 0x90E))) (.node 0x5ABB8462AA (.node 0x5AB459A647 (.leaf 0x912) (.leaf 0xFBF7)) (.node 0x5AC6779057 (.leaf 0xAAAF) (.leaf 0x1E81))))) (nameTree_755)
def nameTree_757 : NameTree := .node 0x5B144F63D4 (.node 0x5B0D8D77B8 (.node 0x5B087C77B8 (.node 0x5B078777B8 (.leaf 0xB36) (.leaf 0xB37)) (.node 0x5B088877B8 (.leaf 0xB25) (.leaf 0xB1F))) (.node 0x5B1269D88A (.node 0x5B0F1FA342 (.leaf 0xB5F) (.leaf 0x1D809)) (.node 0x5B13B73F4C (.leaf 0xFE4B) (.leaf 0x1C51)))) (.node 0x5B25DFCC86 (.node 0x5B17B2524C (.node 0x5B1756A599 (.leaf 0x115C1) (.leaf 0x2AEA)) (.node 0x5B18C0494C (.leaf 0x1C56) (.leaf 0x1C52))) (.node 0x5B266D018D (.node 0x5B2655B442 (.leaf 0x10B9C) (.leaf 0x2EA1)) (.node 0x5B27FBBF6A (.leaf 0x49B) (.leaf 0x120B8))))
def nameTree_758 : NameTree := .node 0x5B077C77B8 (.node 0x5B028277B8 (.node 0x5AFF7C77B8 (.node 0x5AFD4BA66D (.leaf 0xB18) (.node 0x5AFE7C77B8 (.leaf 0x1A94) (.leaf 0xB1D))) (.node 0x5B01999057 (.node 0x5B008077B8 (.leaf 0xB16) (.leaf 0xB33)) (.node 0x5B027B77B8 (.leaf 0x1EF3) (.leaf 0xB19)))) (.node 0x5B049EEBC7 (.node 0x5B04523882 (.node 0x5B028D77B8 (.leaf 0xB23) (.leaf 0xB1E)) (.node 0x5B047C77B8 (.leaf 0x27A7) (.leaf 0xB2B))) (.node 0x5B067C77B8 (.node 0x5B06476363 (.leaf 0x761) (.leaf 0x108FF)) (.node 0x5B068677B8 (.leaf 0xB5D) (.leaf 0xB5C))))) (nameTree_757)
def nameTree_759 : NameTree := .node 0x5B85520025 (.node 0x5B69992331 (.node 0x5B5BBE09D1 (.node 0x5B5BBE08D1 (.leaf 0x19C5) (.leaf 0x19C4)) (.node 0x5B5BBE11D1 (.leaf 0x19C3) (.leaf 0x19C1))) (.node 0x5B7814C113 (.node 0x5B7623AEA0 (.leaf 0x1D9C3) (.leaf 0xFB46)) (.node 0x5B82E92880 (.leaf 0xFB2D) (.leaf 0x1F4A0)))) (.node 0x5BA35CAAD2 (.node 0x5B93932F8C (.node 0x5B877A0ABF (.leaf 0x1D32C) (.leaf 0x1104C)) (.node 0x5B95A12EE4 (.leaf 0x1E8D4) (.leaf 0x3137))) (.node 0x5BB67CB172 (.node 0x5BB56D3558 (.leaf 0x1D95E) (.leaf 0x6C2)) (.node 0x5BBE0A170D (.leaf 0xFBD5) (.leaf 0x19C2))))
def nameTree_760 : NameTree := .node 0x5B5BBE06D1 (.node 0x5B3CE578A0 (.node 0x5B344F1BBD (.node 0x5B2D7127E3 (.leaf 0x2EA2) (.node 0x5B31045720 (.leaf 0x1F645) (.leaf 0x1A80))) (.node 0x5B371F294E (.node 0x5B370FACE2 (.leaf 0x2B49) (.leaf 0x1E7B)) (.node 0x5B3CE574A0 (.leaf 0xFBFA) (.leaf 0x15B3)))) (.node 0x5B3CE58AA0 (.node 0x5B3CE582A0 (.node 0x5B3CE57CA0 (.leaf 0x15B0) (.leaf 0x15B1)) (.node 0x5B3CE586A0 (.leaf 0x15B2) (.leaf 0x1508))) (.node 0x5B5BBDFDD1 (.node 0x5B533A4714 (.leaf 0x167F) (.leaf 0xA6F6)) (.node 0x5B5BBDFFD1 (.leaf 0x19C7) (.leaf 0x19C6))))) (nameTree_759)
def nameTree_761 : NameTree := .node 0x5BF79B53E5 (.node 0x5BDA0027DD (.node 0x5BC73895E0 (.node 0x5BC4D372AA (.leaf 0xFD54) (.node 0x5BC73872E0 (.leaf 0x1E2B) (.leaf 0x12416))) (.node 0x5BD76F15BB (.node 0x5BC983A540 (.leaf 0x1241F) (.leaf 0x2BAF)) (.node 0x5BD76F1BBB (.leaf 0xCE2) (.leaf 0xCC3)))) (.node 0x5BEA928551 (.node 0x5BE4E7CE3F (.node 0x5BE1DD9556 (.leaf 0x1EE76) (.leaf 0x22DB)) (.node 0x5BE58B88D5 (.leaf 0x825) (.leaf 0x10461))) (.node 0x5BEB1B6550 (.node 0x5BEB144355 (.leaf 0x3236) (.leaf 0x1D0D8)) (.node 0x5BEFB21554 (.leaf 0x1D0D9) (.leaf 0x2472))))) (.node 0x5C0481DC4F (.node 0x5BFDAA659D (.node 0x5BF901B342 (.leaf 0x2F11) (.node 0x5BFB600681 (.leaf 0x1D7FD) (.leaf 0x1F4D))) (.node 0x5BFF444555 (.node 0x5BFE156905 (.leaf 0x2F39) (.leaf 0x2517)) (.node 0x5C029A5EDB (.leaf 0x2050) (.leaf 0x2F0A)))) (.node 0x5C1DBE783E (.node 0x5C0B2E8CD8 (.node 0x5C0603003D (.leaf 0x20C) (.leaf 0x12017)) (.node 0x5C0E0F7ADE (.leaf 0xA69A) (.leaf 0x124A1))) (.node 0x5C25043ADD (.node 0x5C233A2D48 (.leaf 0x1CE7) (.leaf 0x627)) (.node 0x5C27B791EA (.leaf 0x1DA65) (.leaf 0xA9C1)))))
def nameTree_762 : NameTree := .node 0x5C5F9839BB (.node 0x5C4FE872F9 (.node 0x5C4FE479F9 (.node 0x5C4FE385F9 (.leaf 0x31C4) (.leaf 0x31D7)) (.node 0x5C4FE772F9 (.leaf 0x31DD) (.leaf 0x31C1))) (.node 0x5C51C32CFE (.node 0x5C50BB828B (.leaf 0x31C2) (.leaf 0x168B2)) (.node 0x5C51F7A87D (.leaf 0x168F9) (.leaf 0xAB30)))) (.node 0x5C6BF90FD9 (.node 0x5C667E962D (.node 0x5C63033064 (.leaf 0xFB91) (.leaf 0x3018)) (.node 0x5C67C2537F (.leaf 0x1D183) (.leaf 0x1CEB))) (.node 0x5C789810DC (.node 0x5C71E81C0D (.leaf 0x202E) (.leaf 0x17D6)) (.node 0x5C7A498DDB (.leaf 0x10526) (.leaf 0x16806))))
def nameTree_763 : NameTree := .node 0x5C4FE382F9 (.node 0x5C4FD87BF9 (.node 0x5C307AB5F1 (.node 0x5C2F254470 (.leaf 0x1F74D) (.node 0x5C2FDB06C4 (.leaf 0x522) (.leaf 0x1F446))) (.node 0x5C4A2D7DD5 (.node 0x5C47FD8C58 (.leaf 0x2044) (.leaf 0xA9CB)) (.node 0x5C4FD872F9 (.leaf 0x11C66) (.leaf 0x31D6)))) (.node 0x5C4FE085F9 (.node 0x5C4FE06FF9 (.node 0x5C4FD885F9 (.leaf 0x31C7) (.leaf 0x31D5)) (.node 0x5C4FE072F9 (.leaf 0x31DB) (.leaf 0x31E2))) (.node 0x5C4FE37BF9 (.node 0x5C4FE372F9 (.leaf 0x31DC) (.leaf 0x31DA)) (.node 0x5C4FE37FF9 (.leaf 0x31D3) (.leaf 0x31D9))))) (nameTree_762)
def nameTree_764 : NameTree := .node 0x5CB629F08A (.node 0x5CAD05FF0C (.node 0x5CA5F8CC32 (.node 0x5CA3FA17A3 (.leaf 0x1F6A7) (.leaf 0x6FA)) (.node 0x5CA7F710A9 (.leaf 0x1A7F) (.leaf 0x25BC))) (.node 0x5CB627F08A (.node 0x5CB612F08A (.leaf 0x2966) (.leaf 0xF60)) (.node 0x5CB628F08A (.leaf 0xF56) (.leaf 0xF45)))) (.node 0x5CB630F08A (.node 0x5CB62DF08A (.node 0x5CB62CF08A (.leaf 0xF51) (.leaf 0xF42)) (.node 0x5CB62FF08A (.leaf 0xF67) (.leaf 0xF47))) (.node 0x5CB632F08A (.node 0x5CB631F08A (.leaf 0xF40) (.leaf 0xF63)) (.node 0x5CB633F08A (.leaf 0xF58) (.leaf 0xF53))))
def nameTree_765 : NameTree := .node 0x5C9CF7B37E (.node 0x5C8CDFBB15 (.node 0x5C81E491DB (.node 0x5C81E485DB (.leaf 0x11C38) (.node 0x5C81E48BDB (.leaf 0x11C30) (.leaf 0x11C3A))) (.node 0x5C8A5E0851 (.node 0x5C8730C7E1 (.leaf 0x11C32) (.leaf 0x10A8D)) (.node 0x5C8C5C45BF (.leaf 0x2A5A) (.leaf 0xFCAA)))) (.node 0x5C9176EBE5 (.node 0x5C8ECEAB1F (.node 0x5C8D69A647 (.leaf 0x1033B) (.leaf 0xFBF1)) (.node 0x5C8ED2BB0B (.leaf 0x10342) (.leaf 0x10346))) (.node 0x5C93D8A96C (.node 0x5C91D254C3 (.leaf 0x1F95E) (.leaf 0x1F3AC)) (.node 0x5C9AD3B676 (.leaf 0x1033C) (.leaf 0x10343))))) (nameTree_764)
def nameTree_766 : NameTree := .node 0x5CE42E00EA (.node 0x5CDE0EA140 (.node 0x5CD3FAC493 (.node 0x5CD29CD4CF (.leaf 0x1035D) (.leaf 0x3370)) (.node 0x5CD70F1FB5 (.leaf 0xA66D) (.leaf 0x22E2))) (.node 0x5CE3FD0986 (.node 0x5CE064A46F (.leaf 0x2350) (.leaf 0x1F895)) (.node 0x5CE42E003C (.leaf 0x1D318) (.leaf 0x33C0)))) (.node 0x5CE44A94BD (.node 0x5CE44A8FBD (.node 0x5CE44A88BD (.leaf 0x33C1) (.leaf 0x1D44)) (.node 0x5CE44A90BD (.leaf 0x1DA3) (.leaf 0x1D4E))) (.node 0x5CE44A9DBD (.node 0x5CE44A99BD (.leaf 0x1D5A) (.leaf 0x2B4)) (.node 0x5CEA4CC4CB (.leaf 0x1DBA) (.leaf 0x1D987))))
def nameTree_767 : NameTree := .node 0x5CD1CDF841 (.node 0x5CB879A5CC (.node 0x5CB639F08A (.node 0x5CB637F08A (.leaf 0xF54) (.node 0x5CB638F08A (.leaf 0xF62) (.leaf 0xF66))) (.node 0x5CB63EF08A (.node 0x5CB63CF08A (.leaf 0xF4F) (.leaf 0xF5D)) (.node 0x5CB63FF08A (.leaf 0xF61) (.leaf 0xF5F)))) (.node 0x5CD0407098 (.node 0x5CC6595C0F (.node 0x5CC3374A15 (.leaf 0x1D92E) (.leaf 0x10147)) (.node 0x5CCB066A2D (.leaf 0x356) (.leaf 0x26E2))) (.node 0x5CD181C134 (.node 0x5CD1423EB1 (.leaf 0x4F5) (.leaf 0x1F421)) (.node 0x5CD1CDF7EA (.leaf 0xAB31) (.leaf 0x1035C))))) (nameTree_766)
def nameTree_768 : NameTree := .node 0x5D049A5E2D (.node 0x5CFBEBAE8A (.node 0x5CFB9660F9 (.node 0x5CEC44EE93 (.leaf 0x27B2) (.node 0x5CFAA45E2D (.leaf 0x1F4D3) (.leaf 0x2F8A))) (.node 0x5CFBEBA48A (.node 0x5CFBEBA08A (.leaf 0x2F25) (.leaf 0xA85)) (.node 0x5CFBEBA88A (.leaf 0xA8F) (.leaf 0xA87)))) (.node 0x5D00A852E0 (.node 0x5CFCC45C51 (.node 0x5CFBEBB48A (.leaf 0xA93) (.leaf 0xA89)) (.node 0x5CFDA959F4 (.leaf 0xFE69) (.leaf 0x2FD2))) (.node 0x5D03A3559D (.node 0x5D03A35393 (.leaf 0x2FBA) (.leaf 0x2FA9)) (.node 0x5D03A95793 (.leaf 0x2FB3) (.leaf 0x2F1D))))) (.node 0x5D1A23B291 (.node 0x5D107A61C1 (.node 0x5D059A6298 (.leaf 0x2F0D) (.node 0x5D0FCE136B (.leaf 0x2F12) (.leaf 0x29A1))) (.node 0x5D19231AAD (.node 0x5D141AAEBA (.leaf 0x104A3) (.leaf 0x602)) (.node 0x5D192326AD (.leaf 0x439) (.leaf 0x45E)))) (.node 0x5D1E98113E (.node 0x5D1C3A2F48 (.node 0x5D1B4D34B2 (.leaf 0x2AE2) (.leaf 0x1BF)) (.node 0x5D1C76DC00 (.leaf 0x67B) (.leaf 0x1F431))) (.node 0x5D34F941CE (.node 0x5D2139E100 (.leaf 0x1D355) (.leaf 0x1F42E)) (.node 0x5D3A0B382C (.leaf 0x21F9) (.leaf 0x23C7)))))
def nameTree_769 : NameTree := .node 0x5D6D7F6B5F (.node 0x5D653E7001 (.node 0x5D63FADEC2 (.node 0x5D61D9FDF6 (.leaf 0x118CA) (.leaf 0x1F6A)) (.node 0x5D63FAE9C2 (.leaf 0x118D0) (.leaf 0x118CD))) (.node 0x5D6B4E3D4D (.node 0x5D66EDE2C2 (.leaf 0x1145B) (.leaf 0x118DC)) (.node 0x5D6CECBC2B (.leaf 0x16812) (.leaf 0x1D005)))) (.node 0x5D7300D5C2 (.node 0x5D71D842A6 (.node 0x5D6DF0D4C2 (.leaf 0x11442) (.leaf 0x118D1)) (.node 0x5D71F5D9C2 (.leaf 0x67D) (.leaf 0x118DE))) (.node 0x5D78347100 (.node 0x5D7801DAC2 (.leaf 0x118D2) (.leaf 0x118CE)) (.node 0x5D7AE0949D (.leaf 0x1F436) (.leaf 0x140A))))
def nameTree_770 : NameTree := .node 0x5D5FFAD7C2 (.node 0x5D4B5CCC7F (.node 0x5D4058CC7F (.node 0x5D3B9FF152 (.leaf 0x10351) (.node 0x5D3D66CC7F (.leaf 0x1E00C) (.leaf 0x10353))) (.node 0x5D490AB7D5 (.node 0x5D455CCC7F (.leaf 0x10352) (.leaf 0x1035B)) (.node 0x5D4AFB9E2B (.leaf 0x2288) (.leaf 0x1EAC)))) (.node 0x5D5258D77F (.node 0x5D4D58CC7F (.node 0x5D4C60CC7F (.leaf 0x10360) (.leaf 0x10361)) (.node 0x5D4F5CD57F (.leaf 0x10362) (.leaf 0x1036E))) (.node 0x5D5269DC7F (.node 0x5D525CD57F (.leaf 0x10371) (.leaf 0x1036F)) (.node 0x5D5C16CBDA (.leaf 0x10367) (.leaf 0x2AB5))))) (nameTree_769)
def nameTree_771 : NameTree := .node 0x5DA77546E3 (.node 0x5D9EF9FAC7 (.node 0x5D865AD284 (.node 0x5D81040F07 (.leaf 0x1D08) (.leaf 0x1BC88)) (.node 0x5D939A0EFC (.leaf 0xA746) (.leaf 0x1D83))) (.node 0x5DA5D64BCD (.node 0x5DA0C7A258 (.leaf 0x266F) (.leaf 0x2189)) (.node 0x5DA77545E3 (.leaf 0x1BC72) (.leaf 0x16F93)))) (.node 0x5DA7754AE3 (.node 0x5DA77548E3 (.node 0x5DA77547E3 (.leaf 0x16F94) (.leaf 0x16F95)) (.node 0x5DA77549E3 (.leaf 0x16F96) (.leaf 0x16F97))) (.node 0x5DB457162A (.node 0x5DA7754BE3 (.leaf 0x16F98) (.leaf 0x16F99)) (.node 0x5DC04CC89E (.leaf 0x1D0AB) (.leaf 0x207A))))
def nameTree_772 : NameTree := .node 0x5D7EE00F2A (.node 0x5D7AE0A19D (.node 0x5D7AE09C9D (.node 0x5D7AE0989D (.leaf 0x14A1) (.node 0x5D7AE0999D (.leaf 0x1401) (.leaf 0x155D))) (.node 0x5D7AE09F9D (.node 0x5D7AE09E9D (.leaf 0x1403) (.leaf 0x1483)) (.node 0x5D7AE0A09D (.leaf 0x14EA) (.leaf 0x14BB)))) (.node 0x5D7AE0A59D (.node 0x5D7AE0A39D (.node 0x5D7AE0A29D (.leaf 0x14D0) (.leaf 0x1405)) (.node 0x5D7AE0A49D (.leaf 0x1449) (.leaf 0x1585))) (.node 0x5D7AE0A79D (.node 0x5D7AE0A69D (.leaf 0x1550) (.leaf 0x1505)) (.node 0x5D7AE0AC9D (.leaf 0x1466) (.leaf 0x153E))))) (nameTree_771)
def nameTree_773 : NameTree := .node 0x5E1DC3DE2F (.node 0x5DFDA45F9D (.node 0x5DFBC76A02 (.node 0x5DFBC76402 (.leaf 0xB8E) (.leaf 0xB87)) (.node 0x5DFBC77002 (.leaf 0xB92) (.leaf 0xB89))) (.node 0x5E057D6BA8 (.node 0x5E00A27A17 (.leaf 0x2F14) (.leaf 0x1D1C7)) (.node 0x5E09907541 (.leaf 0x104A8) (.leaf 0x22B7)))) (.node 0x5E2786A873 (.node 0x5E204D9686 (.node 0x5E1E9C9613 (.leaf 0x1D89C) (.leaf 0x256F)) (.node 0x5E263A3800 (.leaf 0x2A85) (.leaf 0x1F98A))) (.node 0x5E3634F979 (.node 0x5E2A8548AA (.leaf 0x29AC) (.leaf 0x1F79A)) (.node 0x5E3D7D368F (.leaf 0x11CA) (.leaf 0x1E1A))))
def nameTree_774 : NameTree := .node 0x5DFBC76002 (.node 0x5DCE2F4321 (.node 0x5DC1AF2A4F (.node 0x5DC1AF204F (.leaf 0x11680) (.node 0x5DC1AF244F (.leaf 0x11686) (.leaf 0x11682))) (.node 0x5DC1D5FEA8 (.node 0x5DC1AF304F (.leaf 0x11688) (.leaf 0x11684)) (.node 0x5DCD059250 (.leaf 0x12066) (.leaf 0x269D)))) (.node 0x5DF19CB94E (.node 0x5DD7D97B41 (.node 0x5DCE848437 (.leaf 0x208C) (.leaf 0x19E0)) (.node 0x5DE405C100 (.leaf 0x1F994) (.leaf 0x124F3))) (.node 0x5DF95966BF (.node 0x5DF396639D (.leaf 0x690) (.leaf 0x2F6D)) (.node 0x5DFBC75C02 (.leaf 0x246C) (.leaf 0xB85))))) (nameTree_773)
def nameTree_775 : NameTree := .node 0x5E6E41C92F (.node 0x5E56430192 (.node 0x5E522FC883 (.node 0x5E4D38BF83 (.leaf 0xFEB8) (.node 0x5E4D506247 (.leaf 0x10916) (.leaf 0x1F811))) (.node 0x5E52D75553 (.node 0x5E5241C983 (.leaf 0x10917) (.leaf 0x1091A)) (.node 0x5E54C42E8D (.leaf 0x11459) (.leaf 0x2A99)))) (.node 0x5E5A4A515C (.node 0x5E56430B92 (.node 0x5E56430592 (.leaf 0x115B8) (.leaf 0x115B0)) (.node 0x5E56431192 (.leaf 0x115BA) (.leaf 0x115B2))) (.node 0x5E6A72F824 (.node 0x5E64F03B06 (.leaf 0xBF4) (.leaf 0x2496)) (.node 0x5E6C00BC3E (.leaf 0x29FC) (.leaf 0x16905))))) (.node 0x5E989687EB (.node 0x5E8434CCE1 (.node 0x5E7069DEF7 (.leaf 0x1D8EA) (.node 0x5E7735AFAA (.leaf 0x25A) (.leaf 0x7F0))) (.node 0x5E914A3CA2 (.node 0x5E8D3CDDEF (.leaf 0x10A83) (.leaf 0x1F4BD)) (.node 0x5E9730A6C8 (.leaf 0x1F478) (.leaf 0x6BE)))) (.node 0x5EC75C16A8 (.node 0x5EB54276F4 (.node 0x5E9A713CF4 (.leaf 0x157C) (.leaf 0x26F5)) (.node 0x5EB54299F4 (.leaf 0x12423) (.leaf 0x1242D))) (.node 0x5ED134A111 (.node 0x5ECB665F23 (.leaf 0x6AB) (.leaf 0x109CB)) (.node 0x5ED4FD5730 (.leaf 0x1223A) (.leaf 0x121F5)))))
def nameTree_776 : NameTree := .node 0x5EDDE76D8F (.node 0x5EDDE16D8F (.node 0x5EDDDF6D8F (.node 0x5EDDDE758F (.leaf 0x115AE) (.leaf 0x11583)) (.node 0x5EDDE06D8F (.leaf 0x11595) (.leaf 0x1158E))) (.node 0x5EDDE36D8F (.node 0x5EDDE26D8F (.leaf 0x115A9) (.leaf 0x115A6)) (.node 0x5EDDE56D8F (.leaf 0x115A1) (.leaf 0x115A2)))) (.node 0x5EDDEB6D8F (.node 0x5EDDE96D8F (.node 0x5EDDE86D8F (.leaf 0x115A8) (.leaf 0x115AD)) (.node 0x5EDDEA818F (.leaf 0x1159D) (.leaf 0x11585))) (.node 0x5EDDEE6D8F (.node 0x5EDDEDAD4A (.leaf 0x115AA) (.leaf 0x1F826)) (.node 0x5EE549749E (.leaf 0x115A7) (.leaf 0xA663))))
def nameTree_777 : NameTree := .node 0x5EDDDD6D8F (.node 0x5EDA4F3BF4 (.node 0x5ED700F8FB (.node 0x5ED700ECFB (.leaf 0x121F3) (.node 0x5ED700F0FB (.leaf 0xE32) (.leaf 0xE41))) (.node 0x5ED714F0FB (.node 0x5ED708F4FB (.leaf 0xE33) (.leaf 0xE35)) (.node 0x5ED71500FB (.leaf 0xE36) (.leaf 0xE39)))) (.node 0x5EDDD76D8F (.node 0x5EDDD6758F (.node 0x5EDDD66D8F (.leaf 0x1F56B) (.leaf 0x11581)) (.node 0x5EDDD6818F (.leaf 0x1158B) (.leaf 0x1158D))) (.node 0x5EDDD96D8F (.node 0x5EDDD86D8F (.leaf 0x115A4) (.leaf 0x11593)) (.node 0x5EDDDC6D8F (.leaf 0x1159F) (.leaf 0x11590))))) (nameTree_776)
def nameTree_778 : NameTree := .node 0x5F0E4BCECC (.node 0x5F0738982A (.node 0x5EFD087998 (.node 0x5EF94A41A2 (.leaf 0x1D7F9) (.leaf 0x26BB)) (.node 0x5EFEBF8D64 (.leaf 0x3CC) (.leaf 0x1D9FC))) (.node 0x5F0AD362CF (.node 0x5F084CC1CC (.leaf 0x1D849) (.leaf 0x325F)) (.node 0x5F0B95DC89 (.leaf 0x1F6CB) (.leaf 0x1B50)))) (.node 0x5F27A66CC4 (.node 0x5F1B363348 (.node 0x5F1533D714 (.leaf 0x325E) (.leaf 0x1E936)) (.node 0x5F22E8BFB1 (.leaf 0x688) (.leaf 0xFCD0))) (.node 0x5F303A2F48 (.node 0x5F2F1328D5 (.leaf 0x2B65) (.leaf 0x21AF)) (.node 0x5F31343100 (.leaf 0x684) (.leaf 0x2448))))
def nameTree_779 : NameTree := .node 0x5EF501AA99 (.node 0x5EEA3E48B1 (.node 0x5EEA3E34B1 (.node 0x5EE54A7C9E (.leaf 0xA665) (.node 0x5EE5A4F5CF (.leaf 0xA667) (.leaf 0x1686D))) (.node 0x5EEA3E3CB1 (.node 0x5EEA3E38B1 (.leaf 0x10C80) (.leaf 0x10C89)) (.node 0x5EEA3E42B1 (.leaf 0x10C90) (.leaf 0x10C9B)))) (.node 0x5EF264C51B (.node 0x5EF11E08FC (.node 0x5EEB7E024E (.leaf 0x10CAA) (.leaf 0x1F864)) (.node 0x5EF25ECA1B (.leaf 0xAA85) (.leaf 0x12253))) (.node 0x5EF26BC11B (.node 0x5EF265C51B (.leaf 0x12392) (.leaf 0x12525)) (.node 0x5EF3FB803A (.leaf 0x12258) (.leaf 0x1F877))))) (nameTree_778)
def nameTree_780 : NameTree := .node 0x5F9060B15C (.node 0x5F854B4F41 (.node 0x5F801D5383 (.node 0x5F801C496A (.leaf 0x10082) (.leaf 0xA792)) (.node 0x5F83D5529C (.leaf 0x23D) (.leaf 0x2528))) (.node 0x5F87ED406E (.node 0x5F87323790 (.leaf 0x1F369) (.leaf 0xE0030)) (.node 0x5F8E3ECDE1 (.leaf 0x1D854) (.leaf 0x10A8C)))) (.node 0x5F99456E5A (.node 0x5F924ADA58 (.node 0x5F9197F326 (.leaf 0x111DC) (.leaf 0x26AF)) (.node 0x5F95C5AC05 (.leaf 0x1F753) (.leaf 0x1DA76))) (.node 0x5F9C707E4B (.node 0x5F99F2A4CF (.leaf 0xA651) (.leaf 0x317)) (.node 0x5FC6D3E276 (.leaf 0x12166) (.leaf 0xB03))))
def nameTree_781 : NameTree := .node 0x5F7488D7A7 (.node 0x5F63F1BE9F (.node 0x5F45F84748 (.node 0x5F443E2C00 (.leaf 0x1F38C) (.node 0x5F45F84148 (.leaf 0x1F6E2) (.leaf 0xD62))) (.node 0x5F4DC0C553 (.node 0x5F484D355E (.leaf 0xD43) (.leaf 0x1DA0A)) (.node 0x5F5A30149E (.leaf 0x1F108) (.leaf 0x204D)))) (.node 0x5F68000BA9 (.node 0x5F64F0CB3E (.node 0x5F64978FE1 (.leaf 0x1681D) (.leaf 0x2E0B)) (.node 0x5F67C5076A (.leaf 0x16942) (.leaf 0x1F891))) (.node 0x5F70A12482 (.node 0x5F6FECBEF6 (.leaf 0x1F398) (.leaf 0x1680F)) (.node 0x5F73E8C224 (.leaf 0xA9B9) (.leaf 0x2FB9))))) (nameTree_780)
def nameTree_782 : NameTree := .node 0x5FEF9E5B89 (.node 0x5FDFDF7080 (.node 0x5FCE39E250 (.node 0x5FC948D9A7 (.leaf 0x10364) (.node 0x5FC994F8AF (.leaf 0x100D8) (.leaf 0x1225E))) (.node 0x5FD354FCEB (.node 0x5FD2CDFDF4 (.leaf 0x1F418) (.leaf 0x10365)) (.node 0x5FD79D5567 (.leaf 0x2E24) (.leaf 0x11098)))) (.node 0x5FED36E5E9 (.node 0x5FEA04B480 (.node 0x5FDFF1DBA3 (.leaf 0x2F67) (.leaf 0xFDA9)) (.node 0x5FEC1D53A8 (.leaf 0x1D7FE) (.leaf 0x1686F))) (.node 0x5FEDF5AB57 (.node 0x5FEDED73CD (.leaf 0x121B4) (.leaf 0x2F5E)) (.node 0x5FEF985CF4 (.leaf 0xFC00) (.leaf 0x2F71))))) (.node 0x6001F1FE04 (.node 0x5FF3F6CA2A (.node 0x5FEFA86089 (.leaf 0x2F72) (.node 0x5FF18CBCD0 (.leaf 0x2F8B) (.leaf 0xFD03))) (.node 0x5FFDA359F9 (.node 0x5FFC5087F2 (.leaf 0xFC1F) (.leaf 0xFE48)) (.node 0x6000A4627F (.leaf 0x2FAE) (.leaf 0x2F6E)))) (.node 0x601726ACAC (.node 0x6007AE2AB6 (.node 0x6003A853D6 (.leaf 0x65F) (.leaf 0x2F80)) (.node 0x6014B9F1E5 (.leaf 0x1F57D) (.leaf 0x16A60))) (.node 0x601C2FB6AC (.node 0x601B21BFAC (.leaf 0x7C1) (.leaf 0x7C6)) (.node 0x6023AE0E3C (.leaf 0x7C2) (.leaf 0x2B1C)))))
def nameTree_783 : NameTree := .node 0x60976AFD73 (.node 0x608D9D6383 (.node 0x607AC425FA (.node 0x607A56CB49 (.leaf 0x1CF0) (.leaf 0x1F871)) (.node 0x6082328566 (.leaf 0x294) (.leaf 0xFD39))) (.node 0x608FF3A035 (.node 0x608EE1BDCD (.leaf 0x2B78) (.leaf 0x10344)) (.node 0x60903ADCE5 (.leaf 0x2E87) (.leaf 0x227A)))) (.node 0x60A2ADACAD (.node 0x60A2AD98AD (.node 0x60A0517631 (.leaf 0x263) (.leaf 0x3200)) (.node 0x60A2ADA0AD (.leaf 0xABE) (.leaf 0xAC8))) (.node 0x60A2C1ACAD (.node 0x60A2B5A0AD (.leaf 0xACC) (.leaf 0xAC0)) (.node 0x60A578B4B0 (.leaf 0xAC2) (.leaf 0x2158))))
def nameTree_784 : NameTree := .node 0x6079DDDE08 (.node 0x6054E117AA (.node 0x604181D395 (.node 0x603DE8F92A (.leaf 0x222B) (.node 0x603F511BA9 (.leaf 0x21FC) (.leaf 0x6A0))) (.node 0x604181DB95 (.node 0x604181D795 (.leaf 0x15AC) (.leaf 0x15A7)) (.node 0x604181E195 (.leaf 0x15A8) (.leaf 0x15AA)))) (.node 0x6065F65E32 (.node 0x606102CD39 (.node 0x6059E01F00 (.leaf 0x2ACE) (.leaf 0xFB34)) (.node 0x60649E5EBA (.leaf 0x16916) (.leaf 0xA7B5))) (.node 0x6070FA627A (.node 0x606974F53E (.leaf 0xA6D3) (.leaf 0x1F619)) (.node 0x607880DCE7 (.leaf 0x19ED) (.leaf 0x27F3))))) (nameTree_783)
def nameTree_785 : NameTree := .node 0x60C870E10A (.node 0x60C66FE10A (.node 0x60C54847D9 (.node 0x60C465E10A (.leaf 0xA89D) (.leaf 0xC2B)) (.node 0x60C5F74BAF (.leaf 0x1FA9) (.leaf 0x213D))) (.node 0x60C770E10A (.node 0x60C765E10A (.leaf 0xC31) (.leaf 0xC36)) (.node 0x60C865E10A (.leaf 0xC37) (.leaf 0xC25)))) (.node 0x60E5742E17 (.node 0x60C8799DC9 (.node 0x60C871E10A (.leaf 0xC58) (.leaf 0xC1F)) (.node 0x60D428A636 (.leaf 0x11020) (.leaf 0x1F90A))) (.node 0x60E8BA5D97 (.node 0x60E74763D0 (.leaf 0x27C7) (.leaf 0x12464)) (.node 0x60E9D0F9FC (.leaf 0x1ED9) (.leaf 0xD22))))
def nameTree_786 : NameTree := .node 0x60C3CFBB5E (.node 0x60B93EC499 (.node 0x60B765E10A (.node 0x60AFC629A2 (.leaf 0x1F18A) (.node 0x60B665E10A (.leaf 0x1F39F) (.leaf 0xC2D))) (.node 0x60B865E10A (.node 0x60B861E10A (.leaf 0xC1B) (.leaf 0xC21)) (.node 0x60B877E10A (.leaf 0xC27) (.leaf 0xC59)))) (.node 0x60C069E10A (.node 0x60BE65E10A (.node 0x60BB65E10A (.leaf 0x114C1) (.leaf 0xC18)) (.node 0x60BF65E10A (.leaf 0xC1D) (.leaf 0xC16))) (.node 0x60C26BE10A (.node 0x60C264E10A (.leaf 0xC33) (.leaf 0xC19)) (.node 0x60C276E10A (.leaf 0xC23) (.leaf 0xC1E))))) (nameTree_785)
def nameTree_787 : NameTree := .node 0x6114428D72 (.node 0x610A7EF252 (.node 0x610A7B0652 (.node 0x610A79F252 (.leaf 0x101E) (.leaf 0x1010)) (.node 0x610A7CF252 (.leaf 0x1026) (.leaf 0x101D))) (.node 0x610D2BD714 (.node 0x610B5EAD01 (.leaf 0x101A) (.leaf 0xFE33)) (.node 0x61110AEB7F (.leaf 0x1E924) (.leaf 0x1F814)))) (.node 0x611F2B6BE3 (.node 0x611B9AB10E (.node 0x61181EFE30 (.leaf 0x269A) (.leaf 0x121FF)) (.node 0x611E1F0630 (.leaf 0x2735) (.leaf 0x1251B))) (.node 0x6122B3B4E4 (.node 0x611F80F1A6 (.leaf 0x1F0C8) (.leaf 0x1061)) (.node 0x6123844100 (.leaf 0x1BC98) (.leaf 0x1F5B7))))
def nameTree_788 : NameTree := .node 0x610A78F252 (.node 0x610A6EFA52 (.node 0x610A68F252 (.node 0x610A670652 (.leaf 0x1209B) (.node 0x610A67F252 (.leaf 0x102A) (.leaf 0x1017))) (.node 0x610A6CF252 (.node 0x610A69F252 (.leaf 0x1005) (.leaf 0x1012)) (.node 0x610A6DF252 (.leaf 0x1002) (.leaf 0x101F)))) (.node 0x610A72F252 (.node 0x610A70F252 (.node 0x610A6FF252 (.leaf 0x1024) (.leaf 0x1007)) (.node 0x610A71F252 (.leaf 0x1000) (.leaf 0x101C))) (.node 0x610A75F252 (.node 0x610A73F252 (.leaf 0x1019) (.leaf 0x1014)) (.node 0x610A77F252 (.leaf 0x1015) (.leaf 0x101B))))) (nameTree_787)
def nameTree_789 : NameTree := .node 0x615B395CDD (.node 0x6139ADCA03 (.node 0x612B3E5FC6 (.node 0x6129260F30 (.leaf 0x1251C) (.node 0x612B3E59C6 (.leaf 0x1238B) (.leaf 0x9E2))) (.node 0x6130B0429B (.node 0x613094617F (.leaf 0x9C3) (.leaf 0x3CD)) (.node 0x6130BB46D0 (.leaf 0xFCD8) (.leaf 0x2CEA)))) (.node 0x615013831B (.node 0x613F333400 (.node 0x6139B19119 (.leaf 0xFB92) (.leaf 0x1F872)) (.node 0x61409058A4 (.leaf 0x2442) (.leaf 0x2934))) (.node 0x6153956E09 (.node 0x6153108979 (.leaf 0x1D79E) (.leaf 0x21DE)) (.node 0x6159BDB827 (.leaf 0x2BCB) (.leaf 0x1F5BA))))) (.node 0x6177DB5DE1 (.node 0x616BA2EC54 (.node 0x6161395CDD (.leaf 0xE18) (.node 0x616631D22E (.leaf 0xE16) (.leaf 0x2385))) (.node 0x617485ECC7 (.node 0x616E9BEC54 (.leaf 0x2ED8) (.leaf 0x2EE3)) (.node 0x6176392067 (.leaf 0x2742) (.leaf 0x1F391)))) (.node 0x61839C86D0 (.node 0x617A628277 (.node 0x61781E2B78 (.leaf 0x21CA) (.leaf 0x695)) (.node 0x617FBEB476 (.leaf 0x2A1) (.leaf 0xAB37))) (.node 0x618A2A7100 (.node 0x6184B5ABD4 (.leaf 0x6F9) (.leaf 0xAB41)) (.node 0x618AF156B1 (.leaf 0x1F437) (.leaf 0x1488)))))
def nameTree_790 : NameTree := .node 0x61ECC6D0AD (.node 0x61DA25B90D (.node 0x61CD9BA702 (.node 0x61C8E4FBA2 (.leaf 0x1243D) (.leaf 0x1F75A)) (.node 0x61CE633417 (.leaf 0x1F676) (.leaf 0x2CFD))) (.node 0x61E7369C50 (.node 0x61E363C856 (.leaf 0x1019A) (.leaf 0x1E64)) (.node 0x61E79B7A33 (.leaf 0x1F3E5) (.leaf 0x2F89)))) (.node 0x61ECC6D4AD (.node 0x61ECC6D2AD (.node 0x61ECC6D1AD (.leaf 0x10655) (.leaf 0x10656)) (.node 0x61ECC6D3AD (.leaf 0x10657) (.leaf 0x10658))) (.node 0x61ECC6D6AD (.node 0x61ECC6D5AD (.leaf 0x10659) (.leaf 0x1065A)) (.node 0x61ECC6D7AD (.leaf 0x1065B) (.leaf 0x1065C))))
def nameTree_791 : NameTree := .node 0x61C2E9DC99 (.node 0x61973E2EE5 (.node 0x618CF4EBA1 (.node 0x618AF956B1 (.leaf 0x1485) (.node 0x618AFF56B1 (.leaf 0x1486) (.leaf 0x1487))) (.node 0x619260ACCD (.node 0x618D5F0F21 (.leaf 0xE5A) (.leaf 0xD82)) (.node 0x619434C97B (.leaf 0x2C90) (.leaf 0x1CF3)))) (.node 0x61A7AB9E4B (.node 0x61A27977E5 (.node 0x619F726D5A (.leaf 0x227B) (.leaf 0x1F649)) (.node 0x61A5156AE1 (.leaf 0xEA) (.leaf 0xFDF8))) (.node 0x61B4FCE475 (.node 0x61B457C845 (.leaf 0x232F) (.leaf 0x1100)) (.node 0x61BF79549D (.leaf 0xFB26) (.leaf 0x7F2))))) (nameTree_790)
def nameTree_792 : NameTree := .node 0x61ECC9D3AD (.node 0x61ECC9CFAD (.node 0x61ECC8D7AD (.node 0x61ECC8D6AD (.leaf 0x10672) (.leaf 0x10673)) (.node 0x61ECC8D8AD (.leaf 0x10674) (.leaf 0x10675))) (.node 0x61ECC9D1AD (.node 0x61ECC9D0AD (.leaf 0x10676) (.leaf 0x10677)) (.node 0x61ECC9D2AD (.leaf 0x10678) (.leaf 0x10679)))) (.node 0x61ECC9D7AD (.node 0x61ECC9D5AD (.node 0x61ECC9D4AD (.leaf 0x1067A) (.leaf 0x1067B)) (.node 0x61ECC9D6AD (.leaf 0x1067C) (.leaf 0x1067D))) (.node 0x61ECCACFAD (.node 0x61ECC9D8AD (.leaf 0x1067E) (.leaf 0x1067F)) (.node 0x61ECCAD0AD (.leaf 0x10680) (.leaf 0x10681))))
def nameTree_793 : NameTree := .node 0x61ECC8D5AD (.node 0x61ECC7D7AD (.node 0x61ECC7D3AD (.node 0x61ECC7D0AD (.leaf 0x10660) (.node 0x61ECC7D1AD (.leaf 0x10661) (.leaf 0x10662))) (.node 0x61ECC7D5AD (.node 0x61ECC7D4AD (.leaf 0x10666) (.leaf 0x10667)) (.node 0x61ECC7D6AD (.leaf 0x10668) (.leaf 0x10669)))) (.node 0x61ECC8D1AD (.node 0x61ECC8CFAD (.node 0x61ECC7D8AD (.leaf 0x1066A) (.leaf 0x1066B)) (.node 0x61ECC8D0AD (.leaf 0x1066C) (.leaf 0x1066D))) (.node 0x61ECC8D3AD (.node 0x61ECC8D2AD (.leaf 0x1066E) (.leaf 0x1066F)) (.node 0x61ECC8D4AD (.leaf 0x10670) (.leaf 0x10671))))) (nameTree_792)
def nameTree_794 : NameTree := .node 0x61ECCCD4AD (.node 0x61ECCCD0AD (.node 0x61ECCBD8AD (.node 0x61ECCBD7AD (.leaf 0x10691) (.leaf 0x10692)) (.node 0x61ECCCCFAD (.leaf 0x10693) (.leaf 0x10694))) (.node 0x61ECCCD2AD (.node 0x61ECCCD1AD (.leaf 0x10695) (.leaf 0x10696)) (.node 0x61ECCCD3AD (.leaf 0x10697) (.leaf 0x10698)))) (.node 0x61ECCCD8AD (.node 0x61ECCCD6AD (.node 0x61ECCCD5AD (.leaf 0x10699) (.leaf 0x1069A)) (.node 0x61ECCCD7AD (.leaf 0x1069B) (.leaf 0x1069C))) (.node 0x61ECCDD0AD (.node 0x61ECCDCFAD (.leaf 0x1069D) (.leaf 0x1069E)) (.node 0x61EEBBF2A6 (.leaf 0x1069F) (.leaf 0x1F586))))
def nameTree_795 : NameTree := .node 0x61ECCBD6AD (.node 0x61ECCAD8AD (.node 0x61ECCAD4AD (.node 0x61ECCAD2AD (.leaf 0x10682) (.node 0x61ECCAD3AD (.leaf 0x10683) (.leaf 0x10684))) (.node 0x61ECCAD6AD (.node 0x61ECCAD5AD (.leaf 0x10685) (.leaf 0x10686)) (.node 0x61ECCAD7AD (.leaf 0x10687) (.leaf 0x10688)))) (.node 0x61ECCBD2AD (.node 0x61ECCBD0AD (.node 0x61ECCBCFAD (.leaf 0x10689) (.leaf 0x1068A)) (.node 0x61ECCBD1AD (.leaf 0x1068B) (.leaf 0x1068C))) (.node 0x61ECCBD4AD (.node 0x61ECCBD3AD (.leaf 0x1068D) (.leaf 0x1068E)) (.node 0x61ECCBD5AD (.leaf 0x1068F) (.leaf 0x10690))))) (nameTree_794)
def nameTree_796 : NameTree := .node 0x61EEC8D0AD (.node 0x61EEC6D8AD (.node 0x61EEC6D3AD (.node 0x61EEC6D1AD (.leaf 0x106B3) (.node 0x61EEC6D2AD (.leaf 0x106B4) (.leaf 0x106B5))) (.node 0x61EEC6D5AD (.node 0x61EEC6D4AD (.leaf 0x106B6) (.leaf 0x106B7)) (.node 0x61EEC6D7AD (.leaf 0x106B8) (.leaf 0x106B9)))) (.node 0x61EEC7D2AD (.node 0x61EEC7D0AD (.node 0x61EEC7CFAD (.leaf 0x106BA) (.leaf 0x106BB)) (.node 0x61EEC7D1AD (.leaf 0x106BC) (.leaf 0x106BD))) (.node 0x61EEC7D5AD (.node 0x61EEC7D4AD (.leaf 0x106BE) (.leaf 0x106BF)) (.node 0x61EEC8CFAD (.leaf 0x106C0) (.leaf 0x106C1))))) (.node 0x61EEC8D8AD (.node 0x61EEC8D4AD (.node 0x61EEC8D2AD (.leaf 0x106C2) (.node 0x61EEC8D3AD (.leaf 0x106C3) (.leaf 0x106C4))) (.node 0x61EEC8D6AD (.node 0x61EEC8D5AD (.leaf 0x106C5) (.leaf 0x106C6)) (.node 0x61EEC8D7AD (.leaf 0x106C7) (.leaf 0x106C8)))) (.node 0x61EEC9D3AD (.node 0x61EEC9D0AD (.node 0x61EEC9CFAD (.leaf 0x106C9) (.leaf 0x106CA)) (.node 0x61EEC9D1AD (.leaf 0x106CB) (.leaf 0x106CC))) (.node 0x61EEC9D5AD (.node 0x61EEC9D4AD (.leaf 0x106CD) (.leaf 0x106CE)) (.node 0x61EEC9D6AD (.leaf 0x106CF) (.leaf 0x106D0)))))
def nameTree_797 : NameTree := .node 0x61EECCD8AD (.node 0x61EECCD3AD (.node 0x61EECBD8AD (.node 0x61EECBD6AD (.leaf 0x106E0) (.leaf 0x106E1)) (.node 0x61EECCD2AD (.leaf 0x106E2) (.leaf 0x106E3))) (.node 0x61EECCD5AD (.node 0x61EECCD4AD (.leaf 0x106E4) (.leaf 0x106E5)) (.node 0x61EECCD7AD (.leaf 0x106E6) (.leaf 0x106E7)))) (.node 0x61EECDD2AD (.node 0x61EECDD0AD (.node 0x61EECDCFAD (.leaf 0x106E8) (.leaf 0x106E9)) (.node 0x61EECDD1AD (.leaf 0x106EA) (.leaf 0x106EB))) (.node 0x61EECDD4AD (.node 0x61EECDD3AD (.leaf 0x106EC) (.leaf 0x106ED)) (.node 0x61EECDD5AD (.leaf 0x106EE) (.leaf 0x106EF))))
def nameTree_798 : NameTree := .node 0x61EECBD5AD (.node 0x61EECAD7AD (.node 0x61EECAD0AD (.node 0x61EEC9D8AD (.leaf 0x106D1) (.node 0x61EECACFAD (.leaf 0x106D2) (.leaf 0x106D3))) (.node 0x61EECAD4AD (.node 0x61EECAD1AD (.leaf 0x106D4) (.leaf 0x106D5)) (.node 0x61EECAD6AD (.leaf 0x106D6) (.leaf 0x106D7)))) (.node 0x61EECBD1AD (.node 0x61EECBCFAD (.node 0x61EECAD8AD (.leaf 0x106D8) (.leaf 0x106D9)) (.node 0x61EECBD0AD (.leaf 0x106DA) (.leaf 0x106DB))) (.node 0x61EECBD3AD (.node 0x61EECBD2AD (.leaf 0x106DC) (.leaf 0x106DD)) (.node 0x61EECBD4AD (.leaf 0x106DE) (.leaf 0x106DF))))) (nameTree_797)
def nameTree_799 : NameTree := .node 0x61EFC6D2AD (.node 0x61EFA3559D (.node 0x61EECFD5AD (.node 0x61EECFD4AD (.leaf 0x106FF) (.leaf 0x10700)) (.node 0x61EECFD7AD (.leaf 0x10701) (.leaf 0x10702))) (.node 0x61EFC6D0AD (.node 0x61EFC6CFAD (.leaf 0x2F74) (.leaf 0x10703)) (.node 0x61EFC6D1AD (.leaf 0x10704) (.leaf 0x10705)))) (.node 0x61EFC6D8AD (.node 0x61EFC6D5AD (.node 0x61EFC6D3AD (.leaf 0x10706) (.leaf 0x10707)) (.node 0x61EFC6D7AD (.leaf 0x10708) (.leaf 0x10709))) (.node 0x61EFC7D0AD (.node 0x61EFC7CFAD (.leaf 0x1070A) (.leaf 0x1070B)) (.node 0x61EFC7D1AD (.leaf 0x1070C) (.leaf 0x1070D))))
def nameTree_800 : NameTree := .node 0x61EECFD3AD (.node 0x61EECED3AD (.node 0x61EECECFAD (.node 0x61EECDD7AD (.leaf 0x106F0) (.node 0x61EECDD8AD (.leaf 0x106F1) (.leaf 0x106F2))) (.node 0x61EECED1AD (.node 0x61EECED0AD (.leaf 0x106F3) (.leaf 0x106F4)) (.node 0x61EECED2AD (.leaf 0x106F5) (.leaf 0x106F6)))) (.node 0x61EECED7AD (.node 0x61EECED5AD (.node 0x61EECED4AD (.leaf 0x106F7) (.leaf 0x106F8)) (.node 0x61EECED6AD (.leaf 0x106F9) (.leaf 0x106FA))) (.node 0x61EECFD0AD (.node 0x61EECED8AD (.leaf 0x106FB) (.leaf 0x106FC)) (.node 0x61EECFD1AD (.leaf 0x106FD) (.leaf 0x106FE))))) (nameTree_799)
def nameTree_801 : NameTree := .node 0x61EFCAD4AD (.node 0x61EFCACFAD (.node 0x61EFC9D6AD (.node 0x61EFC9D3AD (.leaf 0x1071D) (.leaf 0x1071E)) (.node 0x61EFC9D7AD (.leaf 0x1071F) (.leaf 0x10720))) (.node 0x61EFCAD2AD (.node 0x61EFCAD1AD (.leaf 0x10721) (.leaf 0x10722)) (.node 0x61EFCAD3AD (.leaf 0x10723) (.leaf 0x10724)))) (.node 0x61EFCBD0AD (.node 0x61EFCAD7AD (.node 0x61EFCAD5AD (.leaf 0x10725) (.leaf 0x10726)) (.node 0x61EFCAD8AD (.leaf 0x10727) (.leaf 0x10728))) (.node 0x61EFCBD2AD (.node 0x61EFCBD1AD (.leaf 0x10729) (.leaf 0x1072A)) (.node 0x61EFCBD3AD (.leaf 0x1072B) (.leaf 0x1072C))))
def nameTree_802 : NameTree := .node 0x61EFC8D8AD (.node 0x61EFC8CFAD (.node 0x61EFC7D5AD (.node 0x61EFC7D3AD (.leaf 0x1070E) (.node 0x61EFC7D4AD (.leaf 0x1070F) (.leaf 0x10710))) (.node 0x61EFC7D7AD (.node 0x61EFC7D6AD (.leaf 0x10711) (.leaf 0x10712)) (.node 0x61EFC7D8AD (.leaf 0x10713) (.leaf 0x10714)))) (.node 0x61EFC8D3AD (.node 0x61EFC8D1AD (.node 0x61EFC8D0AD (.leaf 0x10715) (.leaf 0x10716)) (.node 0x61EFC8D2AD (.leaf 0x10717) (.leaf 0x10718))) (.node 0x61EFC8D6AD (.node 0x61EFC8D5AD (.leaf 0x10719) (.leaf 0x1071A)) (.node 0x61EFC8D7AD (.leaf 0x1071B) (.leaf 0x1071C))))) (nameTree_801)
def nameTree_803 : NameTree := .node 0x61F558F881 (.node 0x61F527E7F9 (.node 0x61F1C6D6AD (.node 0x61F1C6D5AD (.leaf 0x10765) (.leaf 0x10766)) (.node 0x61F3965E9D (.leaf 0x10767) (.leaf 0x2F53))) (.node 0x61F527F1F9 (.node 0x61F527EBF9 (.leaf 0x112E5) (.leaf 0x112E1)) (.node 0x61F527F7F9 (.leaf 0x112E7) (.leaf 0x112E3)))) (.node 0x621533D714 (.node 0x61FDA3569D (.node 0x61F6564D75 (.leaf 0xFE52) (.leaf 0x10B81)) (.node 0x61FF67C660 (.leaf 0x2F6F) (.leaf 0x1D940))) (.node 0x622C3A2F48 (.node 0x6218223D91 (.leaf 0x1E925) (.leaf 0x27A6)) (.node 0x62308DFA70 (.leaf 0x6B3) (.leaf 0x19A2))))
def nameTree_804 : NameTree := .node 0x61F1C6D4AD (.node 0x61EFCCD1AD (.node 0x61EFCBD7AD (.node 0x61EFCBD5AD (.leaf 0x1072D) (.node 0x61EFCBD6AD (.leaf 0x1072E) (.leaf 0x1072F))) (.node 0x61EFCCCFAD (.node 0x61EFCBD8AD (.leaf 0x10730) (.leaf 0x10731)) (.node 0x61EFCCD0AD (.leaf 0x10732) (.leaf 0x10733)))) (.node 0x61F1C6D0AD (.node 0x61EFCCD3AD (.node 0x61EFCCD2AD (.leaf 0x10734) (.leaf 0x10735)) (.node 0x61F1C6CFAD (.leaf 0x10736) (.leaf 0x10760))) (.node 0x61F1C6D2AD (.node 0x61F1C6D1AD (.leaf 0x10761) (.leaf 0x10762)) (.node 0x61F1C6D3AD (.leaf 0x10763) (.leaf 0x10764))))) (nameTree_803)
def nameTree_805 : NameTree := .node 0x625AB3264B (.node 0x6248433550 (.node 0x6247632A49 (.node 0x624261A96E (.leaf 0x1220E) (.leaf 0x3CB)) (.node 0x6247EBEC3F (.leaf 0x104F) (.leaf 0x1D95B))) (.node 0x624CC11FA5 (.node 0x62498DCAFE (.leaf 0x16B9) (.leaf 0x2602)) (.node 0x6251919482 (.leaf 0x2E4) (.leaf 0xD5C)))) (.node 0x625EFDAA1F (.node 0x625E4F8347 (.node 0x625DDCD73A (.leaf 0x2C3A) (.leaf 0x27BB)) (.node 0x625EA4F2C7 (.leaf 0xD74) (.leaf 0x21A5))) (.node 0x626467331C (.node 0x62607DA2F2 (.leaf 0x29BA) (.leaf 0x2B36)) (.node 0x6268A20054 (.leaf 0x2CBD) (.leaf 0x2ECF))))
def nameTree_806 : NameTree := .node 0x6233F5FD01 (.node 0x62309BFA70 (.node 0x623096FA70 (.node 0x623091FA70 (.leaf 0x19A1) (.node 0x623093FA70 (.leaf 0x199A) (.leaf 0x19A0))) (.node 0x623098FA70 (.node 0x623097FA70 (.leaf 0x1982) (.leaf 0x199C)) (.node 0x623099FA70 (.leaf 0x1996) (.leaf 0x1990)))) (.node 0x6230A1FA70 (.node 0x62309EFA70 (.node 0x62309CFA70 (.leaf 0x1994) (.leaf 0x1980)) (.node 0x62309FFA70 (.leaf 0x1989) (.leaf 0x198E))) (.node 0x6230A4FA70 (.node 0x6230A3FA70 (.leaf 0x199B) (.leaf 0x1983)) (.node 0x6233261979 (.leaf 0x198A) (.leaf 0x12209))))) (nameTree_805)
def nameTree_807 : NameTree := .node 0x628D481861 (.node 0x628D481461 (.node 0x628D481261 (.node 0x628D481161 (.leaf 0x13220) (.leaf 0x13221)) (.node 0x628D481361 (.leaf 0x13222) (.leaf 0x13223))) (.node 0x628D481661 (.node 0x628D481561 (.leaf 0x13224) (.leaf 0x13226)) (.node 0x628D481761 (.leaf 0x13227) (.leaf 0x13228)))) (.node 0x628D491261 (.node 0x628D491061 (.node 0x628D490F61 (.leaf 0x13229) (.leaf 0x1322A)) (.node 0x628D491161 (.leaf 0x1322B) (.leaf 0x1322C))) (.node 0x628D491461 (.node 0x628D491361 (.leaf 0x1322D) (.leaf 0x1322E)) (.node 0x628D491561 (.leaf 0x1322F) (.leaf 0x13230))))
def nameTree_808 : NameTree := .node 0x628D481061 (.node 0x627FEAC4A7 (.node 0x6275C002E6 (.node 0x6271F4E011 (.leaf 0x2708) (.node 0x627504056B (.leaf 0x526) (.leaf 0x300F))) (.node 0x627C2BBCF9 (.node 0x627B57D6C8 (.leaf 0x1EBE) (.leaf 0x1BBD)) (.node 0x627DC6EF68 (.leaf 0xFDFA) (.leaf 0x26CA)))) (.node 0x628768D6C8 (.node 0x628554EAC8 (.node 0x628457D6C8 (.leaf 0x1009B) (.leaf 0x1BAE)) (.node 0x628756D6C8 (.leaf 0x1BBC) (.leaf 0x1B8D))) (.node 0x628C68D6C8 (.node 0x628B54EAC8 (.leaf 0x1B91) (.leaf 0x1BBB)) (.node 0x628CE1BA10 (.leaf 0x1BAF) (.leaf 0x10347))))) (nameTree_807)
def nameTree_809 : NameTree := .node 0x630C1DDA6D (.node 0x62F8056E3C (.node 0x62F43E473D (.node 0x62E4D52BD2 (.leaf 0x1F875) (.leaf 0x2F82)) (.node 0x62F744996D (.leaf 0x1D9AC) (.leaf 0x1A99))) (.node 0x62FA2B6C89 (.node 0x62F975CCB7 (.leaf 0x1F40) (.leaf 0x1D886)) (.node 0x63001FD78D (.leaf 0xFEA0) (.leaf 0x1F366)))) (.node 0x631D5AF7B0 (.node 0x63127F7D76 (.node 0x630CC56492 (.leaf 0x168C1) (.leaf 0x2048)) (.node 0x6318504189 (.leaf 0x1D8D7) (.leaf 0xFEE4))) (.node 0x6321974843 (.node 0x631F01FCDD (.leaf 0x108FC) (.leaf 0x1D5)) (.node 0x6321A74843 (.leaf 0xA929) (.leaf 0xA926))))
def nameTree_810 : NameTree := .node 0x62DD027274 (.node 0x629697968A (.node 0x628D4A0F61 (.node 0x628D491761 (.leaf 0x13231) (.node 0x628D491861 (.leaf 0x13233) (.leaf 0x13234))) (.node 0x6295DF56DE (.node 0x6292750187 (.leaf 0x13235) (.leaf 0x259)) (.node 0x629600352C (.leaf 0x2217) (.leaf 0xFECE)))) (.node 0x62AB945149 (.node 0x629C249CB4 (.node 0x62982ED781 (.leaf 0x2E2D) (.leaf 0x2447)) (.node 0x629DA9FC04 (.leaf 0x1D06B) (.leaf 0x2558))) (.node 0x62C603473A (.node 0x62B415C874 (.leaf 0x1F70E) (.leaf 0xFC6B)) (.node 0x62CE2972A0 (.leaf 0xFF40) (.leaf 0x21C7))))) (nameTree_809)
def nameTree_811 : NameTree := .node 0x5FC8D10884 (.node 0x5CEB3B2826 (.node 0x5BBF22B7FD (.node 0x5AFB7C77B8 (.node 0x5A96410FB0 (nameTree_754) (nameTree_756)) (.node 0x5B2B5EBE42 (nameTree_758) (nameTree_760))) (.node 0x5C81E481DB (.node 0x5C2A8090C6 (nameTree_761) (nameTree_763)) (.node 0x5CB635F08A (nameTree_765) (nameTree_767)))) (.node 0x5E45D6EA3D (.node 0x5D7AE0969D (.node 0x5D3B6CD57F (nameTree_768) (nameTree_770)) (.node 0x5DC1AF1C4F (nameTree_772) (nameTree_774))) (.node 0x5EE54A7B9E (.node 0x5ED5CBC030 (nameTree_775) (nameTree_777)) (.node 0x5F4009AC29 (nameTree_779) (nameTree_781))))) (.node 0x61EEC6D0AD (.node 0x61261F0A30 (.node 0x60A9FF21D0 (.node 0x603BDFEF93 (nameTree_782) (nameTree_784)) (.node 0x6105967A95 (nameTree_786) (nameTree_788))) (.node 0x61ECC7CFAD (.node 0x618AF556B1 (nameTree_789) (nameTree_791)) (.node 0x61ECCAD1AD (nameTree_793) (nameTree_795)))) (.node 0x61EFCBD4AD (.node 0x61EECDD6AD (.node 0x61EEC9D7AD (nameTree_796) (nameTree_798)) (.node 0x61EFC7D2AD (nameTree_800) (nameTree_802))) (.node 0x6271393E50 (.node 0x62308FFA70 (nameTree_804) (nameTree_806)) (.node 0x628D491661 (nameTree_808) (nameTree_810)))))
def nameTree_812 : NameTree := .node 0x6379CA36BE (.node 0x633C4A2E00 (.node 0x632F9D0F6E (.node 0x632C355AF7 (.leaf 0x1013A) (.node 0x632E0F1FED (.leaf 0x1D94A) (.leaf 0x1D9A0))) (.node 0x6335DD5B30 (.node 0x6333C11FE5 (.leaf 0x16831) (.leaf 0x2271)) (.node 0x6338980705 (.leaf 0x12058) (.leaf 0x1E012)))) (.node 0x6347E185E7 (.node 0x633F423DF4 (.node 0x633F303400 (.leaf 0x8B3) (.leaf 0x2440)) (.node 0x6347D440B0 (.leaf 0x1F36D) (.leaf 0x1F725))) (.node 0x6354FBB7B3 (.node 0x6348348243 (.leaf 0x205B) (.leaf 0xFC5A)) (.node 0x635AE51E37 (.leaf 0x1DFC) (.leaf 0x3197))))) (.node 0x63824B8D50 (.node 0x637CD63667 (.node 0x6379D3350B (.leaf 0x3BB) (.node 0x6379D6411F (.leaf 0x3B3) (.leaf 0x3E1))) (.node 0x637E840621 (.node 0x637D1D2DC9 (.leaf 0x3BA) (.leaf 0x1F030)) (.node 0x638047CEA7 (.leaf 0xFC48) (.leaf 0x100A0)))) (.node 0x639B4244AC (.node 0x63953E40AC (.node 0x6388A1D923 (.leaf 0x1F95F) (.leaf 0xE4B)) (.node 0x63969893C8 (.leaf 0x22B8) (.leaf 0x29E2))) (.node 0x639B60D489 (.node 0x639B60CD89 (.leaf 0x228C) (.leaf 0x2C6F)) (.node 0x639B60D789 (.leaf 0xA78D) (.leaf 0xA7B0)))))
def nameTree_813 : NameTree := .node 0x63BDD61F1A (.node 0x63B7B644E8 (.node 0x63B7B63CE8 (.node 0x63B7259199 (.leaf 0x66A) (.leaf 0x292F)) (.node 0x63B7B640E8 (.leaf 0x1A61) (.leaf 0x1A6E))) (.node 0x63B7B650E8 (.node 0x63B7B64AE8 (.leaf 0x1A65) (.leaf 0x1A6B)) (.node 0x63BACBE669 (.leaf 0x1A69) (.leaf 0x2B3A)))) (.node 0x63CFEFAF7E (.node 0x63CA463D9D (.node 0x63BF18E015 (.leaf 0x2727) (.leaf 0x1F60D)) (.node 0x63CCB42095 (.leaf 0x1F516) (.leaf 0x47A))) (.node 0x63DCEF9693 (.node 0x63D3E58A85 (.leaf 0xFED2) (.leaf 0x2F2D)) (.node 0x63E3F2B8B6 (.leaf 0x2709) (.leaf 0x4DD3))))
def nameTree_814 : NameTree := .node 0x63B327F901 (.node 0x63A1E94C20 (.node 0x639B60E289 (.node 0x639B60D989 (.leaf 0xA780) (.node 0x639B60E089 (.leaf 0x19C) (.leaf 0xA7B1))) (.node 0x63A1AD0276 (.node 0x63A17B861D (.leaf 0x245) (.leaf 0xABF0)) (.node 0x63A1D53392 (.leaf 0xFE92) (.leaf 0xFED4)))) (.node 0x63A2941CD7 (.node 0x63A261DF74 (.node 0x63A239AE58 (.leaf 0xFEEC) (.leaf 0xFB59)) (.node 0x63A275F802 (.leaf 0xFE98) (.leaf 0xFB6D))) (.node 0x63A9AE6B01 (.node 0x63A859410D (.leaf 0xFEF4) (.leaf 0x1F575)) (.node 0x63AA0873E7 (.leaf 0x2C5D) (.leaf 0x1F584))))) (nameTree_813)
def nameTree_815 : NameTree := .node 0x644BE10EC7 (.node 0x643FD8BE6F (.node 0x64383E7DEC (.node 0x6436F62A2E (.leaf 0x1F43F) (.leaf 0x1367)) (.node 0x643996E57A (.leaf 0x1D1A7) (.leaf 0x2AAC))) (.node 0x64487C05CA (.node 0x64402EFD35 (.leaf 0x1D119) (.leaf 0x1F30C)) (.node 0x6449CD3FBD (.leaf 0x2914) (.leaf 0xD5D)))) (.node 0x646B59BD2D (.node 0x645DD1EECC (.node 0x6456476E94 (.leaf 0x174) (.leaf 0x1099E)) (.node 0x645E33626E (.leaf 0x85B) (.leaf 0x2CB7))) (.node 0x647098B06E (.node 0x646E68DEEE (.leaf 0x4B7) (.leaf 0x1A7A)) (.node 0x6475F2E19C (.leaf 0x607) (.leaf 0x319D))))
def nameTree_816 : NameTree := .node 0x6432DF3550 (.node 0x6416D2206A (.node 0x63F5816251 (.node 0x63ED1851D6 (.leaf 0x1FD0) (.node 0x63F114CC34 (.leaf 0x2B5D) (.leaf 0x168B7))) (.node 0x63FDC56A91 (.node 0x63F7E6DA84 (.leaf 0x1687F) (.leaf 0x1D70A)) (.node 0x64059F5E8A (.leaf 0x104C) (.leaf 0xA4F9)))) (.node 0x642792BBC4 (.node 0x641ED2206A (.node 0x641D25CD43 (.leaf 0x1B78) (.leaf 0x233D)) (.node 0x64243F3403 (.leaf 0x1B7C) (.leaf 0x1F952))) (.node 0x642AD2206A (.node 0x6428BF67A1 (.leaf 0x2722) (.leaf 0x2309)) (.node 0x642B2B76E0 (.leaf 0x1B79) (.leaf 0x218))))) (nameTree_815)
def nameTree_817 : NameTree := .node 0x648B39A119 (.node 0x648B33A119 (.node 0x648B31A119 (.node 0x648B2FA119 (.leaf 0x10514) (.leaf 0x10513)) (.node 0x648B32A119 (.leaf 0x10517) (.leaf 0x10518))) (.node 0x648B35A119 (.node 0x648B34A119 (.leaf 0x10519) (.leaf 0x1051B)) (.node 0x648B37A119 (.leaf 0x1051D) (.leaf 0x10520)))) (.node 0x648BC4EC0F (.node 0x648B4A73ED (.node 0x648B3BA119 (.leaf 0x10521) (.leaf 0x10523)) (.node 0x648B8821C7 (.leaf 0x1D956) (.leaf 0x316E))) (.node 0x648BC4F6C7 (.node 0x648BC4F2C2 (.leaf 0x3140) (.leaf 0x313B)) (.node 0x648BFCA15C (.leaf 0x313C) (.leaf 0x3135))))
def nameTree_818 : NameTree := .node 0x648B2F9D19 (.node 0x648B26A519 (.node 0x64868DF8C5 (.node 0x647CF9BCEB (.leaf 0x1F5CE) (.node 0x647F7D35FD (.leaf 0x1F3D1) (.leaf 0x7F6))) (.node 0x648B24A119 (.node 0x648B23A119 (.leaf 0x1F58C) (.leaf 0x10501)) (.node 0x648B25A119 (.leaf 0x10502) (.leaf 0x10504)))) (.node 0x648B2BA119 (.node 0x648B28A119 (.node 0x648B27A119 (.leaf 0x10507) (.leaf 0x10509)) (.node 0x648B29A119 (.leaf 0x1050A) (.leaf 0x1050C))) (.node 0x648B2DA119 (.node 0x648B2CA119 (.leaf 0x1050E) (.leaf 0x1050F)) (.node 0x648B2EA119 (.leaf 0x10510) (.leaf 0x10512))))) (nameTree_817)
def nameTree_819 : NameTree := .node 0x64C3980058 (.node 0x649671FC6E (.node 0x64915986BA (.node 0x648CE5C35C (.leaf 0x3136) (.node 0x648EFB9DC5 (.leaf 0x3176) (.leaf 0x2E9E))) (.node 0x6493BA86BA (.node 0x64920786BA (.leaf 0xDBD) (.leaf 0xDB1)) (.node 0x6493D4ACD2 (.leaf 0xDC3) (.leaf 0x10345)))) (.node 0x64BE69FB3A (.node 0x64BC0C9F93 (.node 0x6496B3C312 (.leaf 0x1E9F) (.leaf 0x1123B)) (.node 0x64BD586679 (.leaf 0x2327) (.leaf 0xFE7F))) (.node 0x64C2C5FBA5 (.node 0x64C24EC1AD (.leaf 0x8D9) (.leaf 0x24EA)) (.node 0x64C397FF58 (.leaf 0xA9BB) (.leaf 0x1D5D4))))) (.node 0x64C3980758 (.node 0x64C3980358 (.node 0x64C3980158 (.leaf 0x1D5D5) (.node 0x64C3980258 (.leaf 0x1D5D6) (.leaf 0x1D5D7))) (.node 0x64C3980558 (.node 0x64C3980458 (.leaf 0x1D5D8) (.leaf 0x1D5D9)) (.node 0x64C3980658 (.leaf 0x1D5DA) (.leaf 0x1D5DB)))) (.node 0x64C3980B58 (.node 0x64C3980958 (.node 0x64C3980858 (.leaf 0x1D5DC) (.leaf 0x1D5DD)) (.node 0x64C3980A58 (.leaf 0x1D5DE) (.leaf 0x1D5DF))) (.node 0x64C3980D58 (.node 0x64C3980C58 (.leaf 0x1D5E0) (.leaf 0x1D5E1)) (.node 0x64C3980E58 (.leaf 0x1D5E2) (.leaf 0x1D5E3)))))
def nameTree_820 : NameTree := .node 0x64CE4A7178 (.node 0x64CC751024 (.node 0x64CB4FE342 (.node 0x64CA5DE642 (.leaf 0x10468) (.leaf 0x10477)) (.node 0x64CB8FCCE8 (.leaf 0x1045A) (.leaf 0x2943))) (.node 0x64CE47F342 (.node 0x64CD8FECF8 (.leaf 0x83D) (.leaf 0x2B00)) (.node 0x64CE47F542 (.leaf 0x1047D) (.leaf 0x10470)))) (.node 0x64CF4BE642 (.node 0x64CE58F342 (.node 0x64CE4DE842 (.leaf 0x27FF) (.leaf 0x10467)) (.node 0x64CEAD14BE (.leaf 0x1047B) (.leaf 0x19DA))) (.node 0x64D072FA42 (.node 0x64D047E842 (.leaf 0x10453) (.leaf 0x1045C)) (.node 0x64D247EF42 (.leaf 0x2767) (.leaf 0x1047E))))
def nameTree_821 : NameTree := .node 0x64CA59E942 (.node 0x64C3981658 (.node 0x64C3981258 (.node 0x64C3981058 (.leaf 0x1D5E4) (.node 0x64C3981158 (.leaf 0x1D5E5) (.leaf 0x1D5E6))) (.node 0x64C3981458 (.node 0x64C3981358 (.leaf 0x1D5E7) (.leaf 0x1D5E8)) (.node 0x64C3981558 (.leaf 0x1D5E9) (.leaf 0x1D5EA)))) (.node 0x64CA4AF042 (.node 0x64C3981858 (.node 0x64C3981758 (.leaf 0x1D5EB) (.leaf 0x1D5EC)) (.node 0x64C56E8C5E (.leaf 0x1D5ED) (.leaf 0x12523))) (.node 0x64CA4FF342 (.node 0x64CA4DE642 (.leaf 0x10469) (.leaf 0x10471)) (.node 0x64CA58E642 (.leaf 0x1047A) (.leaf 0x10478))))) (nameTree_820)
def nameTree_822 : NameTree := .node 0x650C81B9AE (.node 0x64FFE987B1 (.node 0x64F39A659D (.node 0x64EF6DA207 (.leaf 0x1045F) (.leaf 0x2955)) (.node 0x64FF9ABA9F (.leaf 0x2F62) (.leaf 0xE4F))) (.node 0x65074CD2CE (.node 0x6500BBB147 (.leaf 0x1C3B) (.leaf 0x16888)) (.node 0x6509747821 (.leaf 0x9F8) (.leaf 0x10E7C)))) (.node 0x651C416EAB (.node 0x65137F3829 (.node 0x6512C50AD2 (.leaf 0x29B0) (.leaf 0x1F565)) (.node 0x651C3A3448 (.leaf 0x6FB) (.leaf 0x62C))) (.node 0x651FE9272F (.node 0x651F723D93 (.leaf 0x241D) (.leaf 0x1F4C5)) (.node 0x65230D5C74 (.leaf 0x2931) (.leaf 0xDB3))))
def nameTree_823 : NameTree := .node 0x64E355F042 (.node 0x64D84FED42 (.node 0x64D51EEEFF (.node 0x64D4036C71 (.leaf 0x10472) (.node 0x64D4A9886E (.leaf 0x10919) (.leaf 0x21D6))) (.node 0x64D75BEF42 (.node 0x64D6887F14 (.leaf 0xFC43) (.leaf 0x1D14C)) (.node 0x64D847EC42 (.leaf 0x1046F) (.leaf 0x10474)))) (.node 0x64E055E642 (.node 0x64DD55F542 (.node 0x64D85BF542 (.leaf 0x10476) (.leaf 0x1046C)) (.node 0x64DF55F842 (.leaf 0x10451) (.leaf 0x1045D))) (.node 0x64E24BE242 (.node 0x64E0974CEC (.leaf 0x10462) (.leaf 0x1DF6)) (.node 0x64E24BF842 (.leaf 0x10458) (.leaf 0x1047F))))) (nameTree_822)
def nameTree_824 : NameTree := .node 0x65689FEC54 (.node 0x65626869FB (.node 0x6556807074 (.node 0x654BE6B29D (.leaf 0x2AC4) (.leaf 0x122F8)) (.node 0x655D7D429C (.leaf 0x11446) (.leaf 0x1F9D0))) (.node 0x6563E17029 (.node 0x65636BFBFF (.leaf 0xFC1E) (.leaf 0x309C)) (.node 0x656870993B (.leaf 0x68A) (.leaf 0xFE28)))) (.node 0x65789522C8 (.node 0x65705A1B02 (.node 0x656E9CFB54 (.leaf 0x2EA3) (.leaf 0x2ECA)) (.node 0x65789324C8 (.leaf 0x219A) (.leaf 0x124D5))) (.node 0x65789621C8 (.node 0x65789526C8 (.leaf 0x124D6) (.leaf 0x124D7)) (.node 0x65789821C8 (.leaf 0x124D8) (.leaf 0x124D9))))
def nameTree_825 : NameTree := .node 0x65463A391F (.node 0x6532154CF5 (.node 0x6529401FE6 (.node 0x6524500729 (.leaf 0xD9F) (.node 0x6525175C74 (.leaf 0x18DD) (.leaf 0xDA6))) (.node 0x652B915623 (.node 0x652A949B79 (.leaf 0x2EDF) (.leaf 0x121DD)) (.node 0x6530BCEA6D (.leaf 0x1F50) (.leaf 0x11039)))) (.node 0x6539FD8838 (.node 0x653456627A (.node 0x65341EDFA3 (.leaf 0xFCA3) (.leaf 0x1F630)) (.node 0x65359B619F (.leaf 0x19EC) (.leaf 0x1E008))) (.node 0x653DBBFE66 (.node 0x653A843E1A (.leaf 0x212) (.leaf 0x605)) (.node 0x653FF54935 (.leaf 0x18B) (.leaf 0x1F636))))) (nameTree_824)
def nameTree_826 : NameTree := .node 0x657B9724C8 (.node 0x657A9421C8 (.node 0x65789C23C8 (.node 0x65789923C8 (.leaf 0x124DA) (.node 0x65789B21C8 (.leaf 0x124DB) (.leaf 0x124DD))) (.node 0x65799723C8 (.node 0x65799621C8 (.leaf 0x124DF) (.leaf 0x124E0)) (.node 0x6579C74776 (.leaf 0x124E1) (.leaf 0x1D0AC)))) (.node 0x657A9529C8 (.node 0x657A9521C8 (.node 0x657A942AC8 (.leaf 0x124E2) (.leaf 0x124E3)) (.node 0x657A9526C8 (.leaf 0x124E4) (.leaf 0x124E5))) (.node 0x657A9926C8 (.node 0x657A9629C8 (.leaf 0x124E6) (.leaf 0x124E7)) (.node 0x657A9927C8 (.leaf 0x124E8) (.leaf 0x124E9))))) (.node 0x657C906E4C (.node 0x657B9B24C8 (.node 0x657B9728C8 (.leaf 0x124EA) (.node 0x657B9729C8 (.leaf 0x124EB) (.leaf 0x124EC))) (.node 0x657B9C21C8 (.node 0x657B9B25C8 (.leaf 0x124ED) (.leaf 0x124EE)) (.node 0x657C525FFC (.leaf 0x124EF) (.leaf 0x2B57)))) (.node 0x657C9828C8 (.node 0x657C972AC8 (.node 0x657C9722C8 (.leaf 0x69F) (.leaf 0x124F0)) (.node 0x657C9821C8 (.leaf 0x124F1) (.leaf 0x124F7))) (.node 0x657C9B24C8 (.node 0x657C9A21C8 (.leaf 0x124F8) (.leaf 0x124F9)) (.node 0x657C9C21C8 (.leaf 0x124FA) (.leaf 0x124FB)))))
def nameTree_827 : NameTree := .node 0x659601802F (.node 0x6595FA802F (.node 0x6595F8802F (.node 0x658C498041 (.leaf 0xFD92) (.leaf 0x1F939)) (.node 0x6595F9802F (.leaf 0x1129D) (.leaf 0x1128A))) (.node 0x6595FE802F (.node 0x6595FD802F (.leaf 0x11298) (.leaf 0x11286)) (.node 0x659600802F (.leaf 0x112A6) (.leaf 0x1128C)))) (.node 0x659606802F (.node 0x659603802F (.node 0x659602802F (.leaf 0x11284) (.leaf 0x112A3)) (.node 0x659604802F (.leaf 0x112A0) (.leaf 0x1129A))) (.node 0x659609802F (.node 0x659608802F (.leaf 0x1129B) (.leaf 0x112A2)) (.node 0x65960A802F (.leaf 0x112A5) (.leaf 0x11296))))
def nameTree_828 : NameTree := .node 0x658C408FE8 (.node 0x657E9729C8 (.node 0x657D9821C8 (.node 0x657C9C24C8 (.leaf 0x124FC) (.node 0x657C9C26C8 (.leaf 0x124FD) (.leaf 0x124FE))) (.node 0x657E9428C8 (.node 0x657E9329C8 (.leaf 0x124FF) (.leaf 0x12500)) (.node 0x657E9627C8 (.leaf 0x12501) (.leaf 0x1250C)))) (.node 0x6584CD7C64 (.node 0x657F972AC8 (.node 0x657F9525C8 (.leaf 0x1250D) (.leaf 0x12517)) (.node 0x6582951C14 (.leaf 0x12518) (.leaf 0x2B01))) (.node 0x658734C7E1 (.node 0x658730CBE1 (.leaf 0x1F80) (.leaf 0x10A99)) (.node 0x658B84E910 (.leaf 0x10A9B) (.leaf 0x2EA6))))) (nameTree_827)
def nameTree_829 : NameTree := .node 0x65FDBC8B1B (.node 0x65F11371C9 (.node 0x65DFA36B3E (.node 0x65D85523B8 (.leaf 0x2717) (.leaf 0xFC16)) (.node 0x65E58C85D8 (.leaf 0x2B56) (.leaf 0xFDF7))) (.node 0x65FBD2708B (.node 0x65FBBC335F (.leaf 0x16897) (.leaf 0x1682B)) (.node 0x65FDBC871B (.leaf 0x1FD1) (.leaf 0xB47)))) (.node 0x660D2BD014 (.node 0x65FDBC971B (.node 0x65FDBC911B (.leaf 0xB3F) (.leaf 0xB4B)) (.node 0x66011E43F9 (.leaf 0xB41) (.leaf 0x2F5))) (.node 0x6614E43BE2 (.node 0x660E70B3E1 (.leaf 0x1E939) (.leaf 0x2B2A)) (.node 0x6618EED58C (.leaf 0x1F0C1) (.leaf 0x225A))))
def nameTree_830 : NameTree := .node 0x65D85145F4 (.node 0x65BD3C20B5 (.node 0x659B3C3D28 (.node 0x65960F802F (.leaf 0x112A4) (.node 0x659986A682 (.leaf 0x112A1) (.leaf 0xA65B))) (.node 0x65B37F0C5E (.node 0x659DA561D7 (.leaf 0x2B0E) (.leaf 0x1062)) (.node 0x65BA97BD52 (.leaf 0x110D7) (.leaf 0x1F0D5)))) (.node 0x65CD5FDE21 (.node 0x65C82475AF (.node 0x65C57F0C5E (.leaf 0x10321) (.leaf 0x110E1)) (.node 0x65C82AB870 (.leaf 0x16A4C) (.leaf 0x240C))) (.node 0x65D36EEF51 (.node 0x65D095542F (.leaf 0x2BEC) (.leaf 0x70B)) (.node 0x65D46BDB9B (.leaf 0x29A) (.leaf 0x1F311))))) (nameTree_829)
def nameTree_831 : NameTree := .node 0x668E4B3006 (.node 0x666A12A342 (.node 0x665D78D7E9 (.node 0x665C4AD33E (.leaf 0x1B3D) (.leaf 0x1690E)) (.node 0x66649864BA (.leaf 0x1B14) (.leaf 0xA727))) (.node 0x666CED0EA6 (.node 0x666BE1ACAF (.leaf 0x1BC7C) (.leaf 0x1F0D4)) (.node 0x667B1FC70A (.leaf 0xA877) (.leaf 0x279D)))) (.node 0x6692372A60 (.node 0x668F3B83C1 (.node 0x668F3613C1 (.leaf 0xAB47) (.leaf 0x78B)) (.node 0x6692321160 (.leaf 0x79B) (.leaf 0x79F))) (.node 0x6694DB3F55 (.node 0x6693A79857 (.leaf 0x79E) (.leaf 0x2CB5)) (.node 0x6696A88B57 (.leaf 0x2123) (.leaf 0x2CD9))))
def nameTree_832 : NameTree := .node 0x665B4DFD3B (.node 0x6636376B53 (.node 0x662859FD78 (.node 0x6622C6EACD (.leaf 0x62E) (.node 0x662853FD78 (.leaf 0x1D0A5) (.leaf 0x1171D))) (.node 0x6635DAE135 (.node 0x66293D86AC (.leaf 0x1171E) (.leaf 0x23E5)) (.node 0x6636144558 (.leaf 0x1F4B0) (.leaf 0x1F69A)))) (.node 0x66478D07D8 (.node 0x663FB7BF8A (.node 0x663844E100 (.leaf 0x1EDA) (.leaf 0x5F)) (.node 0x66457FFD91 (.leaf 0x2A33) (.leaf 0x29F5))) (.node 0x664B1F3A3F (.node 0x6649918FC0 (.leaf 0x1DA18) (.leaf 0xD5E)) (.node 0x664DCB3CE9 (.leaf 0x1D86E) (.leaf 0x1D72D))))) (nameTree_831)
def nameTree_833 : NameTree := .node 0x66A3364E5F (.node 0x66A32C4E5F (.node 0x669A9F9E57 (.node 0x6697B19257 (.leaf 0x7A3) (.node 0x66982A8ADF (.leaf 0x2CC7) (.leaf 0xE007B))) (.node 0x66A1AD9F57 (.node 0x669AA39357 (.leaf 0x2CD5) (.leaf 0x2CD3)) (.node 0x66A3174E5F (.leaf 0x2CBF) (.leaf 0x11A29)))) (.node 0x66A3314E5F (.node 0x66A32E4E5F (.node 0x66A32D4E5F (.leaf 0x11A20) (.leaf 0x11A10)) (.node 0x66A330F254 (.leaf 0x11A1B) (.leaf 0x1EBB))) (.node 0x66A3344E5F (.node 0x66A3324E5F (.leaf 0x11A0D) (.leaf 0x11A31)) (.node 0x66A3354E5F (.leaf 0x11A12) (.leaf 0x11A0B))))) (.node 0x66A3404E5F (.node 0x66A33A4E5F (.node 0x66A3374E5F (.leaf 0x11A2C) (.node 0x66A3384E5F (.leaf 0x11A22) (.leaf 0x11A1D))) (.node 0x66A33D4E5F (.node 0x66A33C4E5F (.leaf 0x11A1E) (.leaf 0x11A2B)) (.node 0x66A33E4E5F (.leaf 0x11A30) (.leaf 0x11A19)))) (.node 0x66A449490F (.node 0x66A3444E5F (.node 0x66A3434E5F (.leaf 0x11A2D) (.leaf 0x11A2A)) (.node 0x66A4232ED6 (.leaf 0x11A28) (.leaf 0x244A))) (.node 0x66D4A2F7E6 (.node 0x66B3CDAE8B (.leaf 0x1F6E8) (.leaf 0x1144C)) (.node 0x66D6AC29FB (.leaf 0xFC2C) (.leaf 0xFB1D)))))
def nameTree_834 : NameTree := .node 0x67114875C8 (.node 0x67107B9AF9 (.node 0x6710779EF9 (.node 0x67107796F9 (.leaf 0x28A) (.leaf 0xC3E)) (.node 0x671077AAF9 (.leaf 0xC48) (.leaf 0xC4C))) (.node 0x671085A4F9 (.node 0x67107F9EF9 (.leaf 0xC47) (.leaf 0xC40)) (.node 0x67108BAAF9 (.leaf 0xC4B) (.leaf 0xC42)))) (.node 0x67313435A5 (.node 0x671C075AE9 (.node 0x671280A6BB (.leaf 0xAB35) (.leaf 0x21F6)) (.node 0x6728C52DF6 (.leaf 0xE0001) (.leaf 0x2AED))) (.node 0x67313437A5 (.node 0x67313436A5 (.leaf 0x1F733) (.leaf 0x1F734)) (.node 0x6732EE3BEF (.leaf 0x1F735) (.leaf 0x221E))))
def nameTree_835 : NameTree := .node 0x670D8A3C7B (.node 0x66F35EFFD0 (.node 0x66F0276D3E (.node 0x66E65087BB (.leaf 0x109DD) (.node 0x66F027693E (.leaf 0x1D719) (.leaf 0x114B9))) (.node 0x66F027793E (.node 0x66F027733E (.leaf 0x114B1) (.leaf 0x114BC)) (.node 0x66F07A3D4B (.leaf 0x114B3) (.leaf 0x24F1)))) (.node 0x66FBE313BB (.node 0x66F5EA10BB (.node 0x66F360586A (.leaf 0x1DA3A) (.leaf 0x1DA39)) (.node 0x66FBDD10BB (.leaf 0x118D9) (.leaf 0x118DA))) (.node 0x670844C1CC (.node 0x6704CE7FFC (.leaf 0x118DB) (.leaf 0x101F7)) (.node 0x6708E139D5 (.leaf 0x32B4) (.leaf 0x1D78C))))) (nameTree_834)
def nameTree_836 : NameTree := .node 0x6775958B20 (.node 0x676EBFF19A (.node 0x676E9E5EBA (.node 0x676BD9ADAC (.leaf 0x2F59) (.leaf 0x120D3)) (.node 0x676E9FF554 (.leaf 0x269) (.leaf 0x2EC7))) (.node 0x67708C8120 (.node 0x676FA0045E (.leaf 0x1AAA) (.leaf 0x2E26)) (.node 0x67748F8B20 (.leaf 0x16B65) (.leaf 0x16B70)))) (.node 0x677DB5B00E (.node 0x6778DA3406 (.node 0x6777CE6BBA (.leaf 0x16B71) (.leaf 0x29CD)) (.node 0x677C818D20 (.leaf 0x3B4) (.leaf 0x16B6F))) (.node 0x67834AEA00 (.node 0x6781B0A29D (.leaf 0x1F656) (.leaf 0x1F0F)) (.node 0x678A8F45EF (.leaf 0x2214) (.leaf 0x1F5D6))))
def nameTree_837 : NameTree := .node 0x6765ECC80D (.node 0x67481F3622 (.node 0x6738935AA7 (.node 0x6733EB0E67 (.leaf 0x11173) (.node 0x6734A0461F (.leaf 0x1D9D9) (.leaf 0x1F89))) (.node 0x6745BED393 (.node 0x673F9FD3FE (.leaf 0xFF20) (.leaf 0x203E)) (.node 0x6746AE8B81 (.leaf 0xA78B) (.leaf 0x1D794)))) (.node 0x675E6D39CC (.node 0x674C1E8B81 (.node 0x674AC59C19 (.leaf 0x2D4B) (.leaf 0x110)) (.node 0x674E3CD1C1 (.leaf 0x1D7A4) (.leaf 0xBB4))) (.node 0x67639ED0A2 (.node 0x67609BEB54 (.leaf 0x1D890) (.leaf 0x2E98)) (.node 0x67648EEB54 (.leaf 0x1F720) (.leaf 0x2EE1))))) (nameTree_836)
def nameTree_838 : NameTree := .node 0x67B3AA213C (.node 0x67AC9D102A (.node 0x67A283723C (.node 0x67A075691B (.leaf 0x2EE4) (.leaf 0x2A5)) (.node 0x67A43C161C (.leaf 0xA72A) (.leaf 0x261E))) (.node 0x67B09F9779 (.node 0x67AD6D9BBC (.leaf 0xA72F) (.leaf 0x21FF)) (.node 0x67B152002E (.leaf 0x1F5E3) (.leaf 0x23E0)))) (.node 0x67C39E5D78 (.node 0x67B8DEFD85 (.node 0x67B57FAE93 (.leaf 0x21BE) (.leaf 0xF14)) (.node 0x67BFA34A78 (.leaf 0x1D826) (.leaf 0x2776))) (.node 0x67C5C56635 (.node 0x67C4AC5478 (.leaf 0x277B) (.leaf 0x2777)) (.node 0x67CA00440D (.leaf 0x35E) (.leaf 0xA9FD))))
def nameTree_839 : NameTree := .node 0x679CFAAACA (.node 0x6792ECAADE (.node 0x6792A25F2F (.node 0x6792A25C2F (.leaf 0x1F5D5) (.node 0x6792A25E2F (.leaf 0xA77A) (.leaf 0xA77C))) (.node 0x6792A26B2F (.node 0x6792A26A2F (.leaf 0x1D79) (.leaf 0xA783)) (.node 0x6792A26C2F (.leaf 0xA785) (.leaf 0xA787)))) (.node 0x6799700EDE (.node 0x67972C8D0A (.node 0x6793202B95 (.leaf 0x2EB6) (.leaf 0x25C1)) (.node 0x67994EC6A4 (.leaf 0x1DA2) (.leaf 0x1D94E))) (.node 0x679C8B85FE (.node 0x67998F86D3 (.leaf 0xFE) (.leaf 0x1CF9)) (.node 0x679CF29A6E (.leaf 0x2728) (.leaf 0x2E9B))))) (nameTree_838)
def nameTree_840 : NameTree := .node 0x67DF9B20DA (.node 0x67D4202AC2 (.node 0x67CA08440D (.node 0x67CA04440D (.leaf 0xA9FB) (.node 0x67CA05440D (.leaf 0xA9E8) (.leaf 0xA9E9))) (.node 0x67CED04155 (.node 0x67CE794155 (.leaf 0xA9EB) (.leaf 0x2003)) (.node 0x67D1FB1710 (.leaf 0x2002) (.leaf 0xA71B)))) (.node 0x67D92934C2 (.node 0x67D81B3DC2 (.node 0x67D45E630A (.leaf 0x33E0) (.leaf 0xE0021)) (.node 0x67D91733C2 (.leaf 0x33E5) (.leaf 0x33E9))) (.node 0x67DB9521DA (.node 0x67DB921EDA (.leaf 0x33E1) (.leaf 0x16F74)) (.node 0x67DB9B20DA (.leaf 0x16F56) (.leaf 0x16F58))))) (.node 0x67E9EC96DB (.node 0x67E39B20DA (.node 0x67DF9F2BDA (.leaf 0x16F5F) (.node 0x67E38E27DA (.leaf 0x16F75) (.leaf 0x16F63))) (.node 0x67E7B0118B (.node 0x67E6F4501D (.leaf 0x16F69) (.leaf 0x10B58)) (.node 0x67E99232DA (.leaf 0xA72D) (.leaf 0x16F60)))) (.node 0x67EF9222DA (.node 0x67EBFD5A1D (.node 0x67EBEB591D (.leaf 0xBF5) (.leaf 0x10B5C)) (.node 0x67EF8E27DA (.leaf 0x10B59) (.leaf 0x16F6C))) (.node 0x67EFB2CB8D (.node 0x67EF9B20DA (.leaf 0x16F6F) (.leaf 0x16F70)) (.node 0x67F15051B2 (.leaf 0x25E2) (.leaf 0xFC04)))))
def nameTree_841 : NameTree := .node 0x686E05B8BC (.node 0x685BEA03B8 (.node 0x6858D27964 (.node 0x685143C814 (.leaf 0x1689A) (.leaf 0x16807)) (.node 0x685BBDBCC6 (.leaf 0xFB43) (.leaf 0x1F4B8))) (.node 0x686B6E19AA (.node 0x685C49CFEC (.leaf 0x2329) (.leaf 0x16933)) (.node 0x686CB0095B (.leaf 0x10129) (.leaf 0x1EC4)))) (.node 0x687CA4F093 (.node 0x687BF94C37 (.node 0x68707E9801 (.leaf 0x27D2) (.leaf 0x1032E)) (.node 0x687CA4EE93 (.leaf 0x2652) (.leaf 0x2A))) (.node 0x687EA62E41 (.node 0x687E911103 (.leaf 0x2042) (.leaf 0x183)) (.node 0x6883F3E2B1 (.leaf 0x2403) (.leaf 0x1F718))))
def nameTree_842 : NameTree := .node 0x684B3AD536 (.node 0x6818473248 (.node 0x680866A890 (.node 0x67FA199929 (.leaf 0x10B87) (.node 0x680455F99A (.leaf 0x10AC8) (.leaf 0x1F709))) (.node 0x68128DA7E6 (.node 0x680B47481F (.leaf 0x5C3) (.leaf 0x1F559)) (.node 0x681295A7E6 (.leaf 0x10887) (.leaf 0x10898)))) (.node 0x681FCEF92A (.node 0x681C3A3448 (.node 0x681C1FD87D (.leaf 0x61C) (.leaf 0x2490)) (.node 0x681C6C5E02 (.leaf 0x645) (.leaf 0x1F5AA))) (.node 0x68460C51E8 (.node 0x68439F8078 (.leaf 0x2A3B) (.leaf 0xFE66)) (.node 0x6848C4C814 (.leaf 0x1D907) (.leaf 0x16804))))) (nameTree_841)
def nameTree_843 : NameTree := .node 0x68B23C6F76 (.node 0x68A0A5CC6F (.node 0x68A0A2CC6F (.node 0x68A0A0CC6F (.leaf 0x11709) (.leaf 0x11703)) (.node 0x68A0A4CC6F (.leaf 0x11706) (.leaf 0x1170D))) (.node 0x68A3A699D1 (.node 0x68A0A6CC6F (.leaf 0x1170F) (.leaf 0x11704)) (.node 0x68A8682223 (.leaf 0xA998) (.leaf 0x240F)))) (.node 0x68C4D97831 (.node 0x68C28090EF (.node 0x68B49D21A3 (.leaf 0xFC61) (.leaf 0x1F7A7)) (.node 0x68C41E0DD9 (.leaf 0xBD0) (.leaf 0x250F))) (.node 0x68CE777DF1 (.node 0x68CE2D42C7 (.leaf 0x11640) (.leaf 0x1D05B)) (.node 0x68D4AF25F8 (.leaf 0x1D14D) (.leaf 0x1DE3))))
def nameTree_844 : NameTree := .node 0x68A09FCC6F (.node 0x689C5A20AB (.node 0x6895D8D13C (.node 0x6887D8E1D6 (.leaf 0x1D9E4) (.node 0x6894ECAD35 (.leaf 0x1D123) (.leaf 0x2EC1))) (.node 0x6896FF0B56 (.node 0x6896F6F155 (.leaf 0x1F331) (.leaf 0x2AE5)) (.node 0x689ADC4A76 (.leaf 0xFECF) (.leaf 0x901)))) (.node 0x68A09ACC6F (.node 0x68A096CC6F (.node 0x68A094CC6F (.leaf 0x1101) (.leaf 0x11708)) (.node 0x68A099CC6F (.leaf 0x11713) (.leaf 0x11715))) (.node 0x68A09DCC6F (.node 0x68A09CCC6F (.leaf 0x11711) (.leaf 0x1170A)) (.node 0x68A09ECC6F (.leaf 0x11700) (.leaf 0x1170E))))) (nameTree_843)
def nameTree_845 : NameTree := .node 0x6926D4E1FE (.node 0x691F617F7F (.node 0x691BC6694B (.node 0x690D0C0E01 (.leaf 0x1F72F) (.leaf 0x1F890)) (.node 0x691BF30268 (.leaf 0xFCFE) (.leaf 0x1B9))) (.node 0x6924C3ECD0 (.node 0x69205F727F (.leaf 0x1365) (.leaf 0x1363)) (.node 0x6926443548 (.leaf 0x2986) (.leaf 0x646)))) (.node 0x6939940A56 (.node 0x693150CFC7 (.node 0x69303A2F48 (.leaf 0x1F352) (.leaf 0x683)) (.node 0x6931EE3B30 (.leaf 0x1123A) (.leaf 0x1205E))) (.node 0x693D82702E (.node 0x693A26FA95 (.leaf 0xBF3) (.leaf 0xAEB)) (.node 0x6940260795 (.leaf 0x1F578) (.leaf 0xAEA))))
def nameTree_846 : NameTree := .node 0x690C9F3287 (.node 0x68F1365093 (.node 0x68E7C97C30 (.node 0x68D5E3998E (.leaf 0x1D024) (.node 0x68D814E3A0 (.leaf 0x2328) (.leaf 0x1D8EE))) (.node 0x68ECF5A5F2 (.node 0x68EA0F01E0 (.leaf 0x1FB7) (.leaf 0x2C5C)) (.node 0x68F050C2DD (.leaf 0xFC47) (.leaf 0x1D71A)))) (.node 0x68FD2C3D24 (.node 0x68F73654DE (.node 0x68F1D4F9FC (.leaf 0x26D4) (.leaf 0xD34)) (.node 0x68F9312A24 (.leaf 0xAADE) (.leaf 0x1E8C7))) (.node 0x690330E0DF (.node 0x68FE3A3424 (.leaf 0x1E8CC) (.leaf 0x1E8C8)) (.node 0x690453F0B4 (.leaf 0xBF9) (.leaf 0x1032F))))) (nameTree_845)
def nameTree_847 : NameTree := .node 0x697F0ACC8B (.node 0x695F32D7E4 (.node 0x694DD841AE (.node 0x69496BF82B (.leaf 0x343) (.node 0x694DC2A4A5 (.leaf 0x2067) (.leaf 0x16865))) (.node 0x69503ED1C1 (.node 0x69502E6439 (.leaf 0x1F0DF) (.leaf 0x168B9)) (.node 0x6956DB38FF (.leaf 0xBA9) (.leaf 0x67C)))) (.node 0x6966C97E77 (.node 0x6964C329B4 (.node 0x696091EC54 (.leaf 0x1F571) (.leaf 0x2EA9)) (.node 0x6965D18C7F (.leaf 0x2513) (.leaf 0x336D))) (.node 0x697D4E3455 (.node 0x696ADA967F (.leaf 0x16892) (.leaf 0x336E)) (.node 0x697E0B1366 (.leaf 0x201F) (.leaf 0x168EA))))) (.node 0x699D7D5754 (.node 0x69911C1504 (.node 0x6985506912 (.leaf 0x2A81) (.node 0x69899BEDA1 (.leaf 0x1D073) (.leaf 0x1F3CF))) (.node 0x69968C9331 (.node 0x69959816E4 (.leaf 0xFD9F) (.leaf 0x3131)) (.node 0x69983A7100 (.leaf 0xFB9F) (.leaf 0x1F43D)))) (.node 0x69ADC2CC06 (.node 0x69A3BFCC06 (.node 0x699E2836B2 (.leaf 0x1C79) (.leaf 0xA71E)) (.node 0x69A4FE6488 (.leaf 0xA99D) (.leaf 0x1D7C))) (.node 0x69B1A8F0CC (.node 0x69ADD4CC06 (.leaf 0xA994) (.leaf 0xA99A)) (.node 0x69B26029E0 (.leaf 0x1D98F) (.leaf 0xFCA)))))
def nameTree_848 : NameTree := .node 0x69F27D586C (.node 0x69EB7CBF55 (.node 0x69DD5CBB55 (.node 0x69DC77D199 (.leaf 0x1F7C7) (.leaf 0x1DA81)) (.node 0x69DF4E9000 (.leaf 0x2B40) (.leaf 0x1F68F))) (.node 0x69EF77D255 (.node 0x69EE81E2EA (.leaf 0xA8E1) (.leaf 0x1D700)) (.node 0x69F085C955 (.leaf 0xA8E6) (.leaf 0xA8E2)))) (.node 0x69F7B56519 (.node 0x69F59B3B86 (.node 0x69F3F1E2EA (.leaf 0x1019B) (.leaf 0x1D710)) (.node 0x69F78CF94C (.leaf 0x100E) (.leaf 0x16C3))) (.node 0x69FD85B7AD (.node 0x69FAC5B49E (.leaf 0x1F65C) (.leaf 0x2719)) (.node 0x69FDB1A3FD (.leaf 0xFEE7) (.leaf 0xE25))))
def nameTree_849 : NameTree := .node 0x69D723C3A3 (.node 0x69C14B842E (.node 0x69BB92F041 (.node 0x69B51985C7 (.leaf 0xA99B) (.node 0x69B8057085 (.leaf 0x16960) (.leaf 0x1D8C9))) (.node 0x69C14B702E (.node 0x69BC357332 (.leaf 0x1104D) (.leaf 0x12459)) (.node 0x69C14B782E (.leaf 0x1A4B) (.leaf 0x1A4D)))) (.node 0x69CCAF66E7 (.node 0x69C840B5B4 (.node 0x69C4773C2E (.leaf 0x1A4F) (.leaf 0x1235F)) (.node 0x69CA4F1643 (.leaf 0x116AB) (.leaf 0x2B23))) (.node 0x69D05632F4 (.node 0x69CFB0376D (.leaf 0x2BC3) (.leaf 0x1DA07)) (.node 0x69D180951C (.leaf 0x25CE) (.leaf 0x2198))))) (nameTree_848)
def nameTree_850 : NameTree := .node 0x6A3D550FC0 (.node 0x6A383BCC73 (.node 0x6A383BC473 (.node 0x6A377D60DC (.leaf 0x16B2C) (.leaf 0x10139)) (.node 0x6A383BC873 (.leaf 0x10496) (.leaf 0x10497))) (.node 0x6A383BD873 (.node 0x6A383BD273 (.leaf 0x10498) (.leaf 0x10499)) (.node 0x6A3A7B9728 (.leaf 0x1049A) (.leaf 0x16B21)))) (.node 0x6A410DA856 (.node 0x6A3EC5A46D (.node 0x6A3E7B9728 (.leaf 0x234A) (.leaf 0x16B1C)) (.node 0x6A407B9728 (.leaf 0xA86E) (.leaf 0x16B2E))) (.node 0x6A44E0F017 (.node 0x6A417B9728 (.leaf 0x1F500) (.leaf 0x16B24)) (.node 0x6A4EDB5F53 (.leaf 0x16CF) (.leaf 0x11450))))
def nameTree_851 : NameTree := .node 0x6A367B9728 (.node 0x6A32936B66 (.node 0x6A29F18BA8 (.node 0x6A18E17C51 (.leaf 0x528) (.node 0x6A18E4607F (.leaf 0x101F5) (.leaf 0xFC79))) (.node 0x6A2F6F9C8B (.node 0x6A2B7B9728 (.leaf 0x219D) (.leaf 0x16B2F)) (.node 0x6A307B9728 (.leaf 0xFC29) (.leaf 0x16B1F)))) (.node 0x6A34904D68 (.node 0x6A347B9728 (.node 0x6A329F99A4 (.leaf 0x1E015) (.leaf 0x1E01D)) (.node 0x6A348C4968 (.leaf 0x16B1E) (.leaf 0x12A3))) (.node 0x6A34A24968 (.node 0x6A349A4968 (.leaf 0x12A4) (.leaf 0x2D8A)) (.node 0x6A357B9728 (.leaf 0x12A7) (.leaf 0x16B26))))) (nameTree_850)
def nameTree_852 : NameTree := .node 0x6A93A9C0B4 (.node 0x6A934A0ACD (.node 0x6A934A08CD (.node 0x6A934A07CD (.leaf 0x1DAAA) (.leaf 0x1DAAB)) (.node 0x6A934A09CD (.leaf 0x1DAAC) (.leaf 0x1DAAD))) (.node 0x6A93A7C0B4 (.node 0x6A934A0BCD (.leaf 0x1DAAE) (.leaf 0x1DAAF)) (.node 0x6A93A8C0B4 (.leaf 0xAA9A) (.leaf 0xAA8A)))) (.node 0x6A93B0C0B4 (.node 0x6A93ACC0B4 (.node 0x6A93ABC0B4 (.leaf 0xAA92) (.leaf 0xAAA0)) (.node 0x6A93ADC0B4 (.leaf 0xAA86) (.leaf 0xAAAC))) (.node 0x6A93B2C0B4 (.node 0x6A93B1C0B4 (.leaf 0xAA80) (.leaf 0xAAA8)) (.node 0x6A93B3C0B4 (.leaf 0xAAA2) (.leaf 0xAA98))))
def nameTree_853 : NameTree := .node 0x6A934A06CD (.node 0x6A77B60BDE (.node 0x6A70FEFE7F (.node 0x6A63CD4232 (.leaf 0x2522) (.node 0x6A64A465BA (.leaf 0x11322) (.leaf 0x26E))) (.node 0x6A736B0B5B (.node 0x6A71DA3976 (.leaf 0x12465) (.leaf 0x3B8)) (.node 0x6A761BF225 (.leaf 0x115C0) (.leaf 0x1AA9)))) (.node 0x6A8E43CDDF (.node 0x6A86167C69 (.node 0x6A855D3B6C (.leaf 0x258F) (.leaf 0x3EA)) (.node 0x6A8B9AAEB6 (.leaf 0xF1A) (.leaf 0x180))) (.node 0x6A933D2CC1 (.node 0x6A90E42E46 (.leaf 0x3CA) (.leaf 0xFD6A)) (.node 0x6A934A05CD (.leaf 0x79D) (.leaf 0x1DAA9))))) (nameTree_852)
def nameTree_854 : NameTree := .node 0x6AD4F8957D (.node 0x6A96228269 (.node 0x6A93B9C0B4 (.node 0x6A93B7C0B4 (.leaf 0xAA9C) (.node 0x6A93B8C0B4 (.leaf 0xAAA6) (.leaf 0xAA8E))) (.node 0x6A93BEC0B4 (.node 0x6A93BBC0B4 (.leaf 0xAA94) (.leaf 0xAAAA)) (.node 0x6A93BF9EDD (.leaf 0xAAA4) (.leaf 0x1D89)))) (.node 0x6ABD67467F (.node 0x6A9FA2C1C4 (.node 0x6A9BA5227A (.leaf 0xF1C) (.leaf 0x2B14)) (.node 0x6AB2B4F63A (.leaf 0x828) (.leaf 0xFC9F))) (.node 0x6AC1A485A2 (.node 0x6ABD6E8C5E (.leaf 0x269F) (.leaf 0x12528)) (.node 0x6ACD7DF31A (.leaf 0x2662) (.leaf 0x1F5F2))))) (.node 0x6AE176D987 (.node 0x6AD9097706 (.node 0x6AD5D3E4AA (.leaf 0x23D6) (.node 0x6AD76333E7 (.leaf 0x1D59) (.leaf 0x2553))) (.node 0x6ADC76DF87 (.node 0x6ADC2EA87F (.leaf 0x2A92) (.leaf 0x971)) (.node 0x6ADE8ADB87 (.leaf 0x1233A) (.leaf 0x1233B)))) (.node 0x6AE4800887 (.node 0x6AE37CD687 (.node 0x6AE176DF87 (.leaf 0x1233D) (.leaf 0x1233F)) (.node 0x6AE388D587 (.leaf 0x12342) (.leaf 0x12344))) (.node 0x6AE68ADA87 (.node 0x6AE68AC087 (.leaf 0x12330) (.leaf 0x12540)) (.node 0x6AE77EDB87 (.leaf 0x12346) (.leaf 0x12347)))))
def nameTree_855 : NameTree := .node 0x6AFF6EC52D (.node 0x6AFF68C52D (.node 0x6AFF66C52D (.node 0x6AFF65CD2D (.leaf 0x11033) (.leaf 0x11008)) (.node 0x6AFF67C52D (.leaf 0x1101A) (.leaf 0x11013))) (.node 0x6AFF6AC52D (.node 0x6AFF69C52D (.leaf 0x1102E) (.leaf 0x1102B)) (.node 0x6AFF6CC52D (.leaf 0x11026) (.leaf 0x11027)))) (.node 0x6AFF72C52D (.node 0x6AFF70C52D (.node 0x6AFF6FC52D (.leaf 0x1102D) (.leaf 0x11032)) (.node 0x6AFF71D92D (.leaf 0x11022) (.leaf 0x1100A))) (.node 0x6B00269DAD (.node 0x6AFF75C52D (.leaf 0x1102F) (.leaf 0x1102C)) (.node 0x6B00AFE03D (.leaf 0x1D0D1) (.leaf 0x58E))))
def nameTree_856 : NameTree := .node 0x6AFF64C52D (.node 0x6AFDC43FAC (.node 0x6AF2524D75 (.node 0x6AEF0DA245 (.leaf 0x12349) (.node 0x6AF2003D3B (.leaf 0x1F47E) (.leaf 0x2770))) (.node 0x6AF40814B8 (.node 0x6AF3D6F9FC (.leaf 0x10B89) (.leaf 0xD29)) (.node 0x6AF615C12B (.leaf 0x1D176) (.leaf 0x109EC)))) (.node 0x6AFF5EC52D (.node 0x6AFF5DCD2D (.node 0x6AFF5DC52D (.leaf 0x1A5A) (.leaf 0x11006)) (.node 0x6AFF5DD92D (.leaf 0x11010) (.leaf 0x11012))) (.node 0x6AFF60C52D (.node 0x6AFF5FC52D (.leaf 0x11029) (.leaf 0x11018)) (.node 0x6AFF63C52D (.leaf 0x11024) (.leaf 0x11015))))) (nameTree_855)
def nameTree_857 : NameTree := .node 0x6B8D481461 (.node 0x6B8D481061 (.node 0x6B8038CDE1 (.node 0x6B7DD19B32 (.leaf 0x1D148) (.leaf 0x1D0E1)) (.node 0x6B8D180F75 (.leaf 0x10A98) (.leaf 0x3F0))) (.node 0x6B8D481261 (.node 0x6B8D481161 (.leaf 0x13236) (.leaf 0x13237)) (.node 0x6B8D481361 (.leaf 0x13238) (.leaf 0x13239)))) (.node 0x6B8D481861 (.node 0x6B8D481661 (.node 0x6B8D481561 (.leaf 0x1323A) (.leaf 0x1323B)) (.node 0x6B8D481761 (.leaf 0x1323C) (.leaf 0x1323D))) (.node 0x6B8D491061 (.node 0x6B8D490F61 (.leaf 0x1323E) (.leaf 0x1323F)) (.node 0x6B8D491161 (.leaf 0x13241) (.leaf 0x13243))))
def nameTree_858 : NameTree := .node 0x6B7D7D259E (.node 0x6B43B0FE34 (.node 0x6B25905318 (.node 0x6B15E14661 (.leaf 0x12354) (.node 0x6B19DD5F5C (.leaf 0x8A2) (.leaf 0x202D))) (.node 0x6B2CA82604 (.node 0x6B2BE4E355 (.leaf 0x103CC) (.leaf 0x1F330)) (.node 0x6B3F7B6010 (.leaf 0x706) (.leaf 0x2270)))) (.node 0x6B4AC0B634 (.node 0x6B4608E291 (.node 0x6B43E29550 (.leaf 0x17CE) (.leaf 0x211F)) (.node 0x6B4881561D (.leaf 0xFEA1) (.leaf 0xFBBD))) (.node 0x6B6E39FE91 (.node 0x6B5E8CBC82 (.leaf 0x17C6) (.leaf 0x1D99E)) (.node 0x6B73D3391F (.leaf 0xFEE9) (.leaf 0x3C3))))) (nameTree_857)
def nameTree_859 : NameTree := .node 0x6BA6E58C24 (.node 0x6BA03DC65B (.node 0x6B9F10089B (.node 0x6B9C082F2E (.leaf 0x1F995) (.leaf 0x60A)) (.node 0x6BA01DFF9B (.leaf 0x2076) (.leaf 0xB2))) (.node 0x6BA1C38D43 (.node 0x6BA1BD8743 (.leaf 0xFCB8) (.leaf 0xC63)) (.node 0x6BA4F65C06 (.leaf 0xC44) (.leaf 0x11AA0)))) (.node 0x6BD03BE3E9 (.node 0x6BB82EDFA8 (.node 0x6BB765EFBD (.leaf 0x108AE) (.leaf 0x2CEE)) (.node 0x6BBAA43A22 (.leaf 0x25D4) (.leaf 0x2278))) (.node 0x6BD43AD9EF (.node 0x6BD0E869F4 (.leaf 0x1D54) (.leaf 0x1D112)) (.node 0x6BD700305D (.leaf 0x1F33A) (.leaf 0x4DFF))))
def nameTree_860 : NameTree := .node 0x6B9B8342FE (.node 0x6B8D4A0F61 (.node 0x6B8D491561 (.node 0x6B8D491361 (.leaf 0x13244) (.node 0x6B8D491461 (.leaf 0x13245) (.leaf 0x13246))) (.node 0x6B8D491761 (.node 0x6B8D491661 (.leaf 0x13247) (.leaf 0x13248)) (.node 0x6B8D491861 (.leaf 0x13249) (.leaf 0x1324B)))) (.node 0x6B941A2316 (.node 0x6B8D4A1161 (.node 0x6B8D4A1061 (.leaf 0x1324C) (.leaf 0x1324D)) (.node 0x6B915E4A39 (.leaf 0x1324E) (.leaf 0xF34))) (.node 0x6B9A65FB69 (.node 0x6B96ED9B6E (.leaf 0x1F497) (.leaf 0x2E81)) (.node 0x6B9B14F59B (.leaf 0x251) (.leaf 0xB9))))) (nameTree_859)
def nameTree_861 : NameTree := .node 0x6C1ABBB053 (.node 0x6C0AFC31A0 (.node 0x6C071765A7 (.node 0x6C071764A7 (.leaf 0x1F035) (.leaf 0x1F036)) (.node 0x6C0A055EEC (.leaf 0x1F037) (.leaf 0xE3A))) (.node 0x6C10053BA0 (.node 0x6C0EF744A0 (.leaf 0xD67) (.leaf 0xD6C)) (.node 0x6C1529C8DE (.leaf 0xD68) (.leaf 0x1F597)))) (.node 0x6C3054932A (.node 0x6C2A565261 (.node 0x6C263F4BA2 (.leaf 0x27BA) (.leaf 0x26F2)) (.node 0x6C2D2771C8 (.leaf 0x716) (.leaf 0x1EE0))) (.node 0x6C3262B91C (.node 0x6C305A992A (.leaf 0x11041) (.leaf 0x1103F)) (.node 0x6C32DA0AD6 (.leaf 0x2CEC) (.leaf 0x1D2D))))
def nameTree_862 : NameTree := .node 0x6C071763A7 (.node 0x6BF44633E5 (.node 0x6BE0AFB237 (.node 0x6BDAF924FD (.leaf 0x2CDF) (.node 0x6BDF802EB9 (.leaf 0x2CE1) (.leaf 0xAB62))) (.node 0x6BE3E130FD (.node 0x6BE255DC36 (.leaf 0x2C3E) (.leaf 0x2658)) (.node 0x6BE49336F1 (.leaf 0x2CE3) (.leaf 0x29F9)))) (.node 0x6C07175FA7 (.node 0x6BFCA2FA75 (.node 0x6BF470083D (.leaf 0x205D) (.leaf 0x1F822)) (.node 0x6C0330A599 (.leaf 0x2B5) (.leaf 0xFE93))) (.node 0x6C071761A7 (.node 0x6C071760A7 (.leaf 0x1F031) (.leaf 0x1F032)) (.node 0x6C071762A7 (.leaf 0x1F033) (.leaf 0x1F034))))) (nameTree_861)
def nameTree_863 : NameTree := .node 0x6C7E386BB6 (.node 0x6C7E3573B6 (.node 0x6C7E03079C (.node 0x6C7AA1E9DC (.leaf 0x1F66) (.leaf 0x1F4B4)) (.node 0x6C7E356BB6 (.leaf 0x1F465) (.leaf 0x11C01))) (.node 0x6C7E366BB6 (.node 0x6C7E357FB6 (.leaf 0x11C0B) (.leaf 0x11C0D)) (.node 0x6C7E376BB6 (.leaf 0x11C24) (.leaf 0x11C13)))) (.node 0x6C7E3E6BB6 (.node 0x6C7E3C6BB6 (.node 0x6C7E3B6BB6 (.leaf 0x11C1F) (.leaf 0x11C10)) (.node 0x6C7E3D73B6 (.leaf 0x11C2E) (.leaf 0x11C03))) (.node 0x6C7E406BB6 (.node 0x6C7E3F6BB6 (.leaf 0x11C15) (.leaf 0x11C0E)) (.node 0x6C7E416BB6 (.leaf 0x11C29) (.leaf 0x11C26))))
def nameTree_864 : NameTree := .node 0x6C75F63228 (.node 0x6C59F3EC2A (.node 0x6C3BD81BEC (.node 0x6C334C9699 (.leaf 0x1D3D) (.node 0x6C388E701F (.leaf 0x120DB) (.leaf 0x1D8BE))) (.node 0x6C3F839E97 (.node 0x6C3D367C12 (.leaf 0x120E1) (.leaf 0xFC50)) (.node 0x6C50EB5DF4 (.leaf 0xA673) (.leaf 0xE82)))) (.node 0x6C6A8A944E (.node 0x6C648EFB54 (.node 0x6C5A526DF5 (.leaf 0x27C9) (.leaf 0x249B)) (.node 0x6C64A0EF54 (.leaf 0x2EBC) (.leaf 0x2EB5))) (.node 0x6C6E9CF554 (.node 0x6C6C320D11 (.leaf 0x63E) (.leaf 0x1201F)) (.node 0x6C6EEB9403 (.leaf 0x2E9D) (.leaf 0x1F818))))) (nameTree_863)
def nameTree_865 : NameTree := .node 0x6CA8424105 (.node 0x6CA5E0D770 (.node 0x6C9D36FFF9 (.node 0x6C9CA7A14A (.leaf 0x12203) (.leaf 0x16FE1)) (.node 0x6CA2E3CE06 (.leaf 0x1F6E3) (.leaf 0x1F82C))) (.node 0x6CA7EB4105 (.node 0x6CA7944105 (.leaf 0x1F684) (.leaf 0xDB7)) (.node 0x6CA8052FA2 (.leaf 0xDA1) (.leaf 0x404)))) (.node 0x6CAC564105 (.node 0x6CAA4C4105 (.node 0x6CA9474105 (.leaf 0xDB0) (.leaf 0xD9D)) (.node 0x6CAAA34105 (.leaf 0xDA3) (.leaf 0xD9B))) (.node 0x6CADB24105 (.node 0x6CACD1ED91 (.leaf 0xDB5) (.leaf 0x1F654)) (.node 0x6CB3E17653 (.leaf 0xDAE) (.leaf 0x10870))))
def nameTree_866 : NameTree := .node 0x6C97FE961A (.node 0x6C7E4D6BB6 (.node 0x6C7E476BB6 (.node 0x6C7E446BB6 (.leaf 0x11C21) (.node 0x6C7E466BB6 (.leaf 0x11C22) (.leaf 0x11C28))) (.node 0x6C7E497FB6 (.node 0x6C7E486BB6 (.leaf 0x11C2D) (.leaf 0x11C1D)) (.node 0x6C7E4A6BB6 (.leaf 0x11C05) (.leaf 0x11C2A)))) (.node 0x6C952F42FE (.node 0x6C873CE8F9 (.node 0x6C801E02BC (.leaf 0x11C27) (.leaf 0x1F780)) (.node 0x6C8F65002B (.leaf 0x1F69D) (.leaf 0xA7B7))) (.node 0x6C974E9A98 (.node 0x6C953547FE (.leaf 0x1F982) (.leaf 0x264F)) (.node 0x6C97643983 (.leaf 0x1F344) (.leaf 0x1D801))))) (nameTree_865)
def nameTree_867 : NameTree := .node 0x6CC446D7A3 (.node 0x6CC443DDA3 (.node 0x6CC443D3A3 (.node 0x6CC443CFA3 (.leaf 0x30B0) (.leaf 0x30CF)) (.node 0x6CC443D7A3 (.leaf 0x30D8) (.leaf 0x30D2))) (.node 0x6CC446CFA3 (.node 0x6CC443E3A3 (.leaf 0x30DB) (.leaf 0x30D5)) (.node 0x6CC446D3A3 (.leaf 0x30AB) (.leaf 0x30B1)))) (.node 0x6CC448D3A3 (.node 0x6CC446E3A3 (.node 0x6CC446DDA3 (.leaf 0x30AD) (.leaf 0x30B3)) (.node 0x6CC448CFA3 (.leaf 0x30AF) (.leaf 0x30DE))) (.node 0x6CC448DDA3 (.node 0x6CC448D7A3 (.leaf 0x30E1) (.leaf 0x30DF)) (.node 0x6CC448E3A3 (.leaf 0x30E2) (.leaf 0x30E0))))
def nameTree_868 : NameTree := .node 0x6CC442E3A3 (.node 0x6CC43FD3A3 (.node 0x6CC43DD7A3 (.node 0x6CC43DCFA3 (.leaf 0xFB85) (.node 0x6CC43DD3A3 (.leaf 0x30D0) (.leaf 0x30D9))) (.node 0x6CC43DE3A3 (.node 0x6CC43DDDA3 (.leaf 0x30D3) (.leaf 0x30DC)) (.node 0x6CC43FCFA3 (.leaf 0x30D6) (.leaf 0x30C0)))) (.node 0x6CC442CFA3 (.node 0x6CC43FDDA3 (.node 0x6CC43FD7A3 (.leaf 0x30C7) (.leaf 0x30C2)) (.node 0x6CC43FE3A3 (.leaf 0x30C9) (.leaf 0x30C5))) (.node 0x6CC442D7A3 (.node 0x6CC442D3A3 (.leaf 0x30AC) (.leaf 0x30B2)) (.node 0x6CC442DDA3 (.leaf 0x30AE) (.leaf 0x30B4))))) (nameTree_867)
def nameTree_869 : NameTree := .node 0x67CA02440D (.node 0x65789822C8 (.node 0x648BFCA80F (.node 0x63ECCE9052 (.node 0x639B60D889 (nameTree_812) (nameTree_814)) (.node 0x647C3E3603 (nameTree_816) (nameTree_818))) (.node 0x64D249E642 (.node 0x64C3980F58 (nameTree_819) (nameTree_821)) (.node 0x6524125C74 (nameTree_823) (nameTree_825)))) (.node 0x66973918C1 (.node 0x65960C802F (.node 0x657C9C23C8 (nameTree_826) (nameTree_828)) (.node 0x661F362F48 (nameTree_830) (nameTree_832))) (.node 0x6732FDEBFE (.node 0x66E633E8B5 (nameTree_833) (nameTree_835)) (.node 0x678D43DFEF (nameTree_837) (nameTree_839))))) (.node 0x6A93B5C0B4 (.node 0x69473767AF (.node 0x6884CB5DF1 (.node 0x67F6564D75 (nameTree_840) (nameTree_842)) (.node 0x68D529D970 (nameTree_844) (nameTree_846))) (.node 0x6A04168BC1 (.node 0x69B3CFCC06 (nameTree_847) (nameTree_849)) (.node 0x6A5FB5B7D6 (nameTree_851) (nameTree_853)))) (.node 0x6BDAE724FD (.node 0x6B019B8287 (.node 0x6AED7DD287 (nameTree_854) (nameTree_856)) (.node 0x6B8D491261 (nameTree_858) (nameTree_860))) (.node 0x6C7E426BB6 (.node 0x6C32E81AD6 (nameTree_862) (nameTree_864)) (.node 0x6CB473503D (nameTree_866) (nameTree_868)))))
def nameTree_870 : NameTree := .node 0x6CC44ECFA3 (.node 0x6CC44BD7A3 (.node 0x6CC449DDA3 (.node 0x6CC449D3A3 (.leaf 0x30CA) (.node 0x6CC449D7A3 (.leaf 0x30CD) (.leaf 0x30CB))) (.node 0x6CC44BCFA3 (.node 0x6CC449E3A3 (.leaf 0x30CE) (.leaf 0x30CC)) (.node 0x6CC44BD3A3 (.leaf 0x30D1) (.leaf 0x30DA)))) (.node 0x6CC44DD3A3 (.node 0x6CC44BE3A3 (.node 0x6CC44BDDA3 (.leaf 0x30D4) (.leaf 0x30DD)) (.node 0x6CC44DCFA3 (.leaf 0x30D7) (.leaf 0x30E9))) (.node 0x6CC44DDDA3 (.node 0x6CC44DD7A3 (.leaf 0x30EC) (.leaf 0x30EA)) (.node 0x6CC44DE3A3 (.leaf 0x30ED) (.leaf 0x30EB))))) (.node 0x6CC44FD7A3 (.node 0x6CC44EDDA3 (.node 0x6CC44ED3A3 (.leaf 0x30B5) (.node 0x6CC44ED7A3 (.leaf 0x30BB) (.leaf 0x30B7))) (.node 0x6CC44FCFA3 (.node 0x6CC44EE3A3 (.leaf 0x30BD) (.leaf 0x30B9)) (.node 0x6CC44FD3A3 (.leaf 0x30BF) (.leaf 0x30C6)))) (.node 0x6CC451D3A3 (.node 0x6CC44FE3A3 (.node 0x6CC44FDDA3 (.leaf 0x30C1) (.leaf 0x30C8)) (.node 0x6CC451CFA3 (.leaf 0x30C4) (.leaf 0x30F7))) (.node 0x6CC451DDA3 (.node 0x6CC451D7A3 (.leaf 0x30F9) (.leaf 0x30F8)) (.node 0x6CC451E3A3 (.leaf 0x30FA) (.leaf 0x30F4)))))
def nameTree_871 : NameTree := .node 0x6CFBFB6CF4 (.node 0x6CECDEF98D (.node 0x6CE3917DB4 (.node 0x6CDFF30BFC (.leaf 0x20AD) (.leaf 0xA953)) (.node 0x6CE653EEF2 (.leaf 0x1253C) (.leaf 0x1D0B0))) (.node 0x6CF038758E (.node 0x6CED62E766 (.leaf 0x34F) (.leaf 0x1681E)) (.node 0x6CF3D202BB (.leaf 0x2325) (.leaf 0x118C0)))) (.node 0x6D04B4B352 (.node 0x6CFDF61EEF (.node 0x6CFDF61DEF (.leaf 0xFCBC) (.leaf 0x12447)) (.node 0x6D01DF08BB (.leaf 0x12448) (.leaf 0x118D3))) (.node 0x6D071760A7 (.node 0x6D07175FA7 (.leaf 0x11052) (.leaf 0x1F038)) (.node 0x6D071761A7 (.leaf 0x1F039) (.leaf 0x1F03A))))
def nameTree_872 : NameTree := .node 0x6CDF318900 (.node 0x6CC455CFA3 (.node 0x6CC452DDA3 (.node 0x6CC452D3A3 (.leaf 0x30EF) (.node 0x6CC452D7A3 (.leaf 0x30F1) (.leaf 0x30F0))) (.node 0x6CC454DDA3 (.node 0x6CC454CFA3 (.leaf 0x30F2) (.leaf 0x30E4)) (.node 0x6CC454E3A3 (.leaf 0x30E8) (.leaf 0x30E6)))) (.node 0x6CC455E3A3 (.node 0x6CC455D7A3 (.node 0x6CC455D3A3 (.leaf 0x30B6) (.leaf 0x30BC)) (.node 0x6CC455DDA3 (.leaf 0x30B8) (.leaf 0x30BE))) (.node 0x6CD9D4280E (.node 0x6CD113DAA0 (.leaf 0x30BA) (.leaf 0x1D8DD)) (.node 0x6CDD08A179 (.leaf 0x1230E) (.leaf 0x2A39))))) (nameTree_871)
def nameTree_873 : NameTree := .node 0x6D53EBE215 (.node 0x6D47265CE5 (.node 0x6D35C4604A (.node 0x6D32EFACDD (.leaf 0x2069) (.leaf 0x3248)) (.node 0x6D40A011AB (.leaf 0x1E944) (.leaf 0x2546))) (.node 0x6D49D6B25B (.node 0x6D490D7090 (.leaf 0x1F898) (.leaf 0x4FB)) (.node 0x6D4D0806FA (.leaf 0x169A3) (.leaf 0x1F0CE)))) (.node 0x6D5750E15D (.node 0x6D574CE75D (.node 0x6D574CDE5D (.leaf 0x27C) (.leaf 0x16AF)) (.node 0x6D574CE85D (.leaf 0x16B0) (.leaf 0x16F3))) (.node 0x6D689FE1FA (.node 0x6D5756EB5D (.leaf 0x16F2) (.leaf 0x16A3)) (.node 0x6D6EB9191A (.leaf 0x238) (.leaf 0x1D0A2))))
def nameTree_874 : NameTree := .node 0x6D2C3F2AD9 (.node 0x6D09ABBC52 (.node 0x6D071765A7 (.node 0x6D071763A7 (.leaf 0x1F03B) (.node 0x6D071764A7 (.leaf 0x1F03C) (.leaf 0x1F03D))) (.node 0x6D08AFC652 (.node 0x6D0870118F (.leaf 0x1F03E) (.leaf 0x101E7)) (.node 0x6D09394C30 (.leaf 0x11057) (.leaf 0x2924)))) (.node 0x6D27CB292A (.node 0x6D1D596756 (.node 0x6D09BDBD52 (.leaf 0x1105B) (.leaf 0x11053)) (.node 0x6D247626FC (.leaf 0x124D2) (.leaf 0x2B1F))) (.node 0x6D2A69C0F9 (.node 0x6D293A2F48 (.leaf 0x120E6) (.leaf 0x691)) (.node 0x6D2AC1A65B (.leaf 0x1F306) (.leaf 0x1D8F0))))) (nameTree_873)
def nameTree_875 : NameTree := .node 0x6DA3ED074D (.node 0x6D9FEC7053 (.node 0x6D9B73DCB9 (.node 0x6D9A09F346 (.leaf 0x2365) (.leaf 0x2936)) (.node 0x6D9D36AA1B (.leaf 0x1F7BB) (.leaf 0x1D0AF))) (.node 0x6DA15CA887 (.node 0x6DA155A887 (.leaf 0x10861) (.leaf 0x1C25)) (.node 0x6DA3EBE66F (.leaf 0x1C24) (.leaf 0xFFAD)))) (.node 0x6DA992E784 (.node 0x6DA57EC651 (.node 0x6DA57A5ECA (.leaf 0xFFB4) (.leaf 0xFBD6)) (.node 0x6DA992E684 (.leaf 0x1166C) (.leaf 0x10280))) (.node 0x6DA992EA84 (.node 0x6DA992E984 (.leaf 0x10282) (.leaf 0x10285)) (.node 0x6DA992EC84 (.leaf 0x10281) (.leaf 0x10284))))
def nameTree_876 : NameTree := .node 0x6D9976CD83 (.node 0x6D8471A012 (.node 0x6D7FA090D0 (.node 0x6D762EA9E4 (.leaf 0x1054) (.node 0x6D77553666 (.leaf 0x1052) (.leaf 0x2ACD))) (.node 0x6D823A5258 (.node 0x6D80334533 (.leaf 0x6F0) (.leaf 0x1C41)) (.node 0x6D842E5833 (.leaf 0x1D72) (.leaf 0x1C46)))) (.node 0x6D8A3AA655 (.node 0x6D89D279B8 (.node 0x6D853C4F33 (.leaf 0x11445) (.leaf 0x1C42)) (.node 0x6D89D27AB8 (.leaf 0x1F743) (.leaf 0x1F744))) (.node 0x6D8EF29FDE (.node 0x6D8BA12094 (.leaf 0x1F579) (.leaf 0x16B66)) (.node 0x6D9583B4CA (.leaf 0x2E92) (.leaf 0x1D184))))) (nameTree_875)
def nameTree_877 : NameTree := .node 0x6DA992FF84 (.node 0x6DA992F584 (.node 0x6DA992F084 (.node 0x6DA992EE84 (.leaf 0x1029B) (.node 0x6DA992EF84 (.leaf 0x10286) (.leaf 0x1028A))) (.node 0x6DA992F284 (.node 0x6DA992F184 (.leaf 0x1028B) (.leaf 0x1028D)) (.node 0x6DA992F384 (.leaf 0x1028E) (.leaf 0x1028F)))) (.node 0x6DA992F984 (.node 0x6DA992F784 (.node 0x6DA992F684 (.leaf 0x10293) (.leaf 0x1028C)) (.node 0x6DA992F884 (.leaf 0x10295) (.leaf 0x10296))) (.node 0x6DA992FC84 (.node 0x6DA992FA84 (.leaf 0x10297) (.leaf 0x10292)) (.node 0x6DA992FD84 (.leaf 0x10287) (.leaf 0x1029C))))) (.node 0x6DC0B52C94 (.node 0x6DB7AB2094 (.node 0x6DB5AB2094 (.leaf 0x10288) (.node 0x6DB6AF1C94 (.leaf 0x3EF) (.leaf 0x2C89))) (.node 0x6DBCB92094 (.node 0x6DBCAE2094 (.leaf 0x3E5) (.leaf 0x2CAD)) (.node 0x6DBCCC011E (.leaf 0x2C9D) (.leaf 0x240A)))) (.node 0x6DC5A72C94 (.node 0x6DC33E5F1D (.node 0x6DC1B92094 (.leaf 0x2CB1) (.leaf 0x2CAF)) (.node 0x6DC4B52C94 (.leaf 0x32BC) (.leaf 0x2C8B))) (.node 0x6DCC574E9D (.node 0x6DC658419D (.leaf 0x2CA7) (.leaf 0xA625)) (.node 0x6DCDDC744E (.leaf 0xA624) (.leaf 0x273F)))))
def nameTree_878 : NameTree := .node 0x6DE63CE500 (.node 0x6DD8CD96EF (.node 0x6DD8CB82EF (.node 0x6DD8CA82EF (.leaf 0x11425) (.leaf 0x1142C)) (.node 0x6DD8CC82EF (.leaf 0x11433) (.leaf 0x1141F))) (.node 0x6DD8D182EF (.node 0x6DD8CF82EF (.leaf 0x11405) (.leaf 0x11430)) (.node 0x6DE4FC67B4 (.leaf 0x1142B) (.leaf 0x1D0A6)))) (.node 0x6DF8B5A24E (.node 0x6DF4AFD2D8 (.node 0x6DF346646E (.leaf 0xAC) (.leaf 0x2494)) (.node 0x6DF6567204 (.leaf 0x168D8) (.leaf 0x2C2C))) (.node 0x6E04255B1B (.node 0x6E03EB5DF4 (.leaf 0x115C2) (.leaf 0xE9C)) (.node 0x6E0425671B (.leaf 0x1732) (.leaf 0x1733))))
def nameTree_879 : NameTree := .node 0x6DD8C882EF (.node 0x6DD8BF82EF (.node 0x6DD8B996EF (.node 0x6DD8B982EF (.leaf 0x2213) (.node 0x6DD8B98AEF (.leaf 0x11401) (.leaf 0x1140B))) (.node 0x6DD8BB82EF (.node 0x6DD8BA82EF (.leaf 0x1140D) (.leaf 0x11427)) (.node 0x6DD8BC82EF (.leaf 0x11414) (.leaf 0x11421)))) (.node 0x6DD8C382EF (.node 0x6DD8C18AEF (.node 0x6DD8C082EF (.leaf 0x11410) (.leaf 0x11434)) (.node 0x6DD8C282EF (.leaf 0x11403) (.leaf 0x11416))) (.node 0x6DD8C582EF (.node 0x6DD8C482EF (.leaf 0x1140E) (.leaf 0x1142E)) (.node 0x6DD8C682EF (.leaf 0x11429) (.leaf 0x11423))))) (nameTree_878)
def nameTree_880 : NameTree := .node 0x6E2B2712AB (.node 0x6E2B270EAB (.node 0x6E2B270CAB (.node 0x6E2B270BAB (.leaf 0xC00) (.leaf 0x1D552)) (.node 0x6E2B270DAB (.leaf 0x1D553) (.leaf 0x1D554))) (.node 0x6E2B2710AB (.node 0x6E2B270FAB (.leaf 0x1D555) (.leaf 0x1D556)) (.node 0x6E2B2711AB (.leaf 0x1D557) (.leaf 0x1D558)))) (.node 0x6E2B2716AB (.node 0x6E2B2714AB (.node 0x6E2B2713AB (.leaf 0x1D559) (.leaf 0x1D55A)) (.node 0x6E2B2715AB (.leaf 0x1D55B) (.leaf 0x1D55C))) (.node 0x6E2B2718AB (.node 0x6E2B2717AB (.leaf 0x1D55D) (.leaf 0x1D55E)) (.node 0x6E2B2719AB (.leaf 0x1D55F) (.leaf 0x1D560))))
def nameTree_881 : NameTree := .node 0x6E29A5B0A1 (.node 0x6E0CBDA062 (.node 0x6E071762A7 (.node 0x6E071760A7 (.leaf 0x1F03F) (.node 0x6E071761A7 (.leaf 0x1F040) (.leaf 0x1F041))) (.node 0x6E071764A7 (.node 0x6E071763A7 (.leaf 0x1F042) (.leaf 0x1F043)) (.node 0x6E071765A7 (.leaf 0x1F044) (.leaf 0x1F045)))) (.node 0x6E1C3A3548 (.node 0x6E12E4A106 (.node 0x6E10059E14 (.leaf 0x2B29) (.leaf 0x1F3D8)) (.node 0x6E13B10216 (.leaf 0x2E1B) (.leaf 0x10A00))) (.node 0x6E26B11F96 (.node 0x6E23887278 (.leaf 0x633) (.leaf 0x2CF2)) (.node 0x6E2857594F (.leaf 0x1D9CD) (.leaf 0x1D015))))) (nameTree_880)
def nameTree_882 : NameTree := .node 0x6E425D3F89 (.node 0x6E3BF79445 (.node 0x6E3A028E45 (.node 0x6E39F78E45 (.leaf 0x11369) (.leaf 0x1D6BD)) (.node 0x6E3AD98400 (.leaf 0x1D6BF) (.leaf 0x2126))) (.node 0x6E3E36E414 (.node 0x6E3DF09A45 (.leaf 0x1D6B8) (.leaf 0x1D6BB)) (.node 0x6E41938401 (.leaf 0x120D7) (.leaf 0x16D2)))) (.node 0x6E4E42D1D6 (.node 0x6E44DE9EAC (.node 0x6E44337820 (.leaf 0x2366) (.leaf 0x1D01C)) (.node 0x6E457A6874 (.leaf 0x1F6BB) (.leaf 0xFBBE))) (.node 0x6E4F056295 (.node 0x6E4E5E35AD (.leaf 0xA7AC) (.leaf 0x8BA)) (.node 0x6E5C7A8837 (.leaf 0x300C) (.leaf 0x1A77))))
def nameTree_883 : NameTree := .node 0x6E3755E213 (.node 0x6E2B2721AB (.node 0x6E2B271DAB (.node 0x6E2B271BAB (.leaf 0x1D561) (.node 0x6E2B271CAB (.leaf 0x1D562) (.leaf 0x1D563))) (.node 0x6E2B271FAB (.node 0x6E2B271EAB (.leaf 0x1D564) (.leaf 0x1D565)) (.node 0x6E2B2720AB (.leaf 0x1D566) (.leaf 0x1D567)))) (.node 0x6E2CF78E45 (.node 0x6E2B2723AB (.node 0x6E2B2722AB (.leaf 0x1D568) (.leaf 0x1D569)) (.node 0x6E2B2724AB (.leaf 0x1D56A) (.leaf 0x1D56B))) (.node 0x6E362D9755 (.node 0x6E2F038645 (.leaf 0x1D6BE) (.leaf 0x1D6AE)) (.node 0x6E36F0F5A0 (.leaf 0x1F484) (.leaf 0x1D959))))) (nameTree_882)
def nameTree_884 : NameTree := .node 0x6E98627A0A (.node 0x6E83CA6B0B (.node 0x6E7B970915 (.node 0x6E5C7A8A37 (.leaf 0x1A78) (.node 0x6E7A22AE95 (.leaf 0x1A79) (.leaf 0x1F45F))) (.node 0x6E80020F33 (.node 0x6E7CCE3301 (.leaf 0x2482) (.leaf 0x3B1)) (.node 0x6E80743BA4 (.leaf 0x2483) (.leaf 0x1F448)))) (.node 0x6E8FC9E999 (.node 0x6E87F0E2F9 (.node 0x6E873F4BA2 (.leaf 0x16F53) (.leaf 0x26F0)) (.node 0x6E8E641569 (.leaf 0xC7B) (.leaf 0x1F8A3))) (.node 0x6E92845D8A (.node 0x6E90D63700 (.leaf 0x816) (.leaf 0x214C)) (.node 0x6E9449AFAE (.leaf 0x1F0A7) (.leaf 0x1D94F))))) (.node 0x6E9FC0B2ED (.node 0x6E9862880A (.node 0x6E98627E0A (.leaf 0x1B83) (.node 0x6E9862820A (.leaf 0x1B88) (.leaf 0x1B84))) (.node 0x6E9CD17C4B (.node 0x6E98628E0A (.leaf 0x1B87) (.leaf 0x1B85)) (.node 0x6E9ECF6CFB (.leaf 0x2618) (.leaf 0x1DBC)))) (.node 0x6EC89E714B (.node 0x6EA1D75F29 (.node 0x6EA08F9CCD (.leaf 0x2276) (.leaf 0x1F0B7)) (.node 0x6EB4760D0F (.leaf 0x1D8B3) (.leaf 0xA9B7))) (.node 0x6ED270BC2C (.node 0x6ED03F7E71 (.leaf 0x2537) (.leaf 0xA837)) (.node 0x6EE3312FBE (.leaf 0x1881) (.leaf 0x206F)))))
def nameTree_885 : NameTree := .node 0x6F2B3A2F48 (.node 0x6F1F363348 (.node 0x6F1B3A6458 (.node 0x6F17FA61F4 (.leaf 0x1D33D) (.leaf 0x11C35)) (.node 0x6F1BB7E7D6 (.leaf 0x1D948) (.leaf 0x229B))) (.node 0x6F21FE35DD (.node 0x6F1F3A2F48 (.leaf 0x630) (.leaf 0x62B)) (.node 0x6F24324511 (.leaf 0x3039) (.leaf 0x1084)))) (.node 0x6F3687C2AD (.node 0x6F2FB28ABF (.node 0x6F2FAD8ABF (.leaf 0x679) (.leaf 0x16F20)) (.node 0x6F2FB68ABF (.leaf 0x16F02) (.leaf 0x16F0D))) (.node 0x6F3BE0991A (.node 0x6F39D28BB5 (.leaf 0x1016F) (.leaf 0x1F33)) (.node 0x6F43ECE369 (.leaf 0x1F627) (.leaf 0x1F66B))))
def nameTree_886 : NameTree := .node 0x6F15577A25 (.node 0x6EF7265529 (.node 0x6EEF4ADC00 (.node 0x6EE68FBC65 (.leaf 0x2C33) (.node 0x6EEA8B1D96 (.leaf 0x1D188) (.leaf 0x274B))) (.node 0x6EF348A36D (.node 0x6EF1F3E6AB (.leaf 0x22AD) (.leaf 0x16CC)) (.node 0x6EF35F3CB6 (.leaf 0x1A90) (.leaf 0xFE14)))) (.node 0x6F071762A7 (.node 0x6F071760A7 (.node 0x6F07175FA7 (.leaf 0x1F399) (.leaf 0x1F046)) (.node 0x6F071761A7 (.leaf 0x1F047) (.leaf 0x1F048))) (.node 0x6F071764A7 (.node 0x6F071763A7 (.leaf 0x1F049) (.leaf 0x1F04A)) (.node 0x6F071765A7 (.leaf 0x1F04B) (.leaf 0x1F04C))))) (nameTree_885)
def nameTree_887 : NameTree := .node 0x6F7BEE71A6 (.node 0x6F756C247B (.node 0x6F749E9399 (.node 0x6F749D9399 (.leaf 0x12498) (.leaf 0x124A4)) (.node 0x6F74A09399 (.leaf 0x124A5) (.leaf 0x124A6))) (.node 0x6F78229666 (.node 0x6F774A067C (.leaf 0x1D149) (.leaf 0x101E1)) (.node 0x6F7881EB38 (.leaf 0xFB2A) (.leaf 0x216)))) (.node 0x6F83EA78A7 (.node 0x6F7CE5B098 (.node 0x6F7C7CC0A8 (.leaf 0x361) (.leaf 0x27C1)) (.node 0x6F7FC646FB (.leaf 0x1064) (.leaf 0x1D9E6))) (.node 0x6F88A24C27 (.node 0x6F8423E3CB (.leaf 0x100B7) (.leaf 0x1D1DE)) (.node 0x6F8DCBB51A (.leaf 0x2959) (.leaf 0x10349))))
def nameTree_888 : NameTree := .node 0x6F74989399 (.node 0x6F5EB9D082 (.node 0x6F51E27893 (.node 0x6F47FEAC20 (.leaf 0xFE74) (.node 0x6F51560610 (.leaf 0xFD14) (.leaf 0x255B))) (.node 0x6F5982860A (.node 0x6F5296720A (.leaf 0x203F) (.leaf 0xA4FA)) (.node 0x6F5A1798EB (.leaf 0xA4FD) (.leaf 0x29F0)))) (.node 0x6F71CD37C3 (.node 0x6F6A88A1B6 (.node 0x6F5FEB5DF4 (.leaf 0x12278) (.leaf 0xE96)) (.node 0x6F6BC364B9 (.leaf 0x2AAF) (.leaf 0x2E37))) (.node 0x6F74979399 (.node 0x6F74978B99 (.leaf 0x3C9) (.leaf 0x12493)) (.node 0x6F74988B99 (.leaf 0x12494) (.leaf 0x12497))))) (nameTree_887)
def nameTree_889 : NameTree := .node 0x6F93FCDDB2 (.node 0x6F93FCD9B2 (.node 0x6F93FCD7B2 (.node 0x6F93FCD6B2 (.leaf 0x1D477) (.leaf 0x1D478)) (.node 0x6F93FCD8B2 (.leaf 0x1D479) (.leaf 0x1D47A))) (.node 0x6F93FCDBB2 (.node 0x6F93FCDAB2 (.leaf 0x1D47B) (.leaf 0x1D47C)) (.node 0x6F93FCDCB2 (.leaf 0x1D47D) (.leaf 0x1D47E)))) (.node 0x6F972A558A (.node 0x6F93FCDFB2 (.node 0x6F93FCDEB2 (.leaf 0x1D47F) (.leaf 0x1D480)) (.node 0x6F972A548A (.leaf 0x1D481) (.leaf 0x14400))) (.node 0x6F972A578A (.node 0x6F972A568A (.leaf 0x14401) (.leaf 0x14402)) (.node 0x6F972A588A (.leaf 0x14403) (.leaf 0x14404))))
def nameTree_890 : NameTree := .node 0x6F93FCD5B2 (.node 0x6F93FCCDB2 (.node 0x6F93FCC9B2 (.node 0x6F93FCC7B2 (.leaf 0x1D468) (.node 0x6F93FCC8B2 (.leaf 0x1D469) (.leaf 0x1D46A))) (.node 0x6F93FCCBB2 (.node 0x6F93FCCAB2 (.leaf 0x1D46B) (.leaf 0x1D46C)) (.node 0x6F93FCCCB2 (.leaf 0x1D46D) (.leaf 0x1D46E)))) (.node 0x6F93FCD1B2 (.node 0x6F93FCCFB2 (.node 0x6F93FCCEB2 (.leaf 0x1D46F) (.leaf 0x1D470)) (.node 0x6F93FCD0B2 (.leaf 0x1D471) (.leaf 0x1D472))) (.node 0x6F93FCD3B2 (.node 0x6F93FCD2B2 (.leaf 0x1D473) (.leaf 0x1D474)) (.node 0x6F93FCD4B2 (.leaf 0x1D475) (.leaf 0x1D476))))) (nameTree_889)
def nameTree_891 : NameTree := .node 0x6F972C5C8A (.node 0x6F972C588A (.node 0x6F972C568A (.node 0x6F972C558A (.leaf 0x14415) (.leaf 0x14416)) (.node 0x6F972C578A (.leaf 0x14417) (.leaf 0x14418))) (.node 0x6F972C5A8A (.node 0x6F972C598A (.leaf 0x14419) (.leaf 0x1441A)) (.node 0x6F972C5B8A (.leaf 0x1441C) (.leaf 0x1441D)))) (.node 0x6F972D568A (.node 0x6F972D548A (.node 0x6F972D538A (.leaf 0x1441E) (.leaf 0x1441F)) (.node 0x6F972D558A (.leaf 0x14420) (.leaf 0x14421))) (.node 0x6F972D588A (.node 0x6F972D578A (.leaf 0x14422) (.leaf 0x14423)) (.node 0x6F972D598A (.leaf 0x14424) (.leaf 0x14425))))
def nameTree_892 : NameTree := .node 0x6F972C548A (.node 0x6F972B568A (.node 0x6F972A5C8A (.node 0x6F972A5A8A (.leaf 0x14405) (.node 0x6F972A5B8A (.leaf 0x14406) (.leaf 0x14407))) (.node 0x6F972B548A (.node 0x6F972B538A (.leaf 0x14408) (.leaf 0x14409)) (.node 0x6F972B558A (.leaf 0x1440B) (.leaf 0x1440C)))) (.node 0x6F972B5A8A (.node 0x6F972B588A (.node 0x6F972B578A (.leaf 0x1440D) (.leaf 0x1440E)) (.node 0x6F972B598A (.leaf 0x1440F) (.leaf 0x14410))) (.node 0x6F972B5C8A (.node 0x6F972B5B8A (.leaf 0x14411) (.leaf 0x14412)) (.node 0x6F972C538A (.leaf 0x14413) (.leaf 0x14414))))) (nameTree_891)
def nameTree_893 : NameTree := .node 0x6F9730538A (.node 0x6F972F598A (.node 0x6F972F578A (.node 0x6F972F568A (.leaf 0x1443A) (.leaf 0x1443B)) (.node 0x6F972F588A (.leaf 0x1443C) (.leaf 0x1443D))) (.node 0x6F972F5B8A (.node 0x6F972F5A8A (.leaf 0x1443E) (.leaf 0x1443F)) (.node 0x6F972F5C8A (.leaf 0x14440) (.leaf 0x14441)))) (.node 0x6F9730578A (.node 0x6F9730558A (.node 0x6F9730548A (.leaf 0x14442) (.leaf 0x14443)) (.node 0x6F9730568A (.leaf 0x14444) (.leaf 0x14445))) (.node 0x6F9730598A (.node 0x6F9730588A (.leaf 0x14446) (.leaf 0x14447)) (.node 0x6F97305A8A (.leaf 0x14448) (.leaf 0x1444C))))
def nameTree_894 : NameTree := .node 0x6F972F558A (.node 0x6F972E578A (.node 0x6F972E538A (.node 0x6F972D5B8A (.leaf 0x14426) (.node 0x6F972D5C8A (.leaf 0x14427) (.leaf 0x14428))) (.node 0x6F972E558A (.node 0x6F972E548A (.leaf 0x1442A) (.leaf 0x1442B)) (.node 0x6F972E568A (.leaf 0x1442D) (.leaf 0x1442E)))) (.node 0x6F972E5B8A (.node 0x6F972E598A (.node 0x6F972E588A (.leaf 0x1442F) (.leaf 0x14430)) (.node 0x6F972E5A8A (.leaf 0x14432) (.leaf 0x14435))) (.node 0x6F972F538A (.node 0x6F972E5C8A (.leaf 0x14436) (.leaf 0x14437)) (.node 0x6F972F548A (.leaf 0x14438) (.leaf 0x14439))))) (nameTree_893)
def nameTree_895 : NameTree := .node 0x6F9733548A (.node 0x6F97325A8A (.node 0x6F9732588A (.node 0x6F9732578A (.leaf 0x1445C) (.leaf 0x1445D)) (.node 0x6F9732598A (.leaf 0x1445E) (.leaf 0x1445F))) (.node 0x6F97325C8A (.node 0x6F97325B8A (.leaf 0x14460) (.leaf 0x14461)) (.node 0x6F9733538A (.leaf 0x14462) (.leaf 0x14463)))) (.node 0x6F9733588A (.node 0x6F9733568A (.node 0x6F9733558A (.leaf 0x14464) (.leaf 0x14465)) (.node 0x6F9733578A (.leaf 0x14466) (.leaf 0x14467))) (.node 0x6F97335A8A (.node 0x6F9733598A (.leaf 0x14468) (.leaf 0x14469)) (.node 0x6F97335B8A (.leaf 0x1446A) (.leaf 0x1446C))))
def nameTree_896 : NameTree := .node 0x6F9732568A (.node 0x6F9731588A (.node 0x6F9731548A (.node 0x6F97305C8A (.leaf 0x1444D) (.node 0x6F9731538A (.leaf 0x1444E) (.leaf 0x1444F))) (.node 0x6F9731568A (.node 0x6F9731558A (.leaf 0x14450) (.leaf 0x14451)) (.node 0x6F9731578A (.leaf 0x14452) (.leaf 0x14453)))) (.node 0x6F97315C8A (.node 0x6F97315A8A (.node 0x6F9731598A (.leaf 0x14454) (.leaf 0x14455)) (.node 0x6F97315B8A (.leaf 0x14456) (.leaf 0x14457))) (.node 0x6F9732548A (.node 0x6F9732538A (.leaf 0x14458) (.leaf 0x14459)) (.node 0x6F9732558A (.leaf 0x1445A) (.leaf 0x1445B))))) (nameTree_895)
def nameTree_897 : NameTree := .node 0x6F982C558A (.node 0x6F982B5B8A (.node 0x6F982B598A (.node 0x6F982B588A (.leaf 0x1448A) (.leaf 0x1448B)) (.node 0x6F982B5A8A (.leaf 0x1448D) (.leaf 0x1448E))) (.node 0x6F982C538A (.node 0x6F982B5C8A (.leaf 0x1448F) (.leaf 0x14490)) (.node 0x6F982C548A (.leaf 0x14491) (.leaf 0x14492)))) (.node 0x6F982C598A (.node 0x6F982C578A (.node 0x6F982C568A (.leaf 0x14493) (.leaf 0x14494)) (.node 0x6F982C588A (.leaf 0x14495) (.leaf 0x14496))) (.node 0x6F982C5B8A (.node 0x6F982C5A8A (.leaf 0x14498) (.leaf 0x14499)) (.node 0x6F982C5C8A (.leaf 0x1449A) (.leaf 0x1449B))))
def nameTree_898 : NameTree := .node 0x6F982B578A (.node 0x6F982A598A (.node 0x6F982A558A (.node 0x6F982A538A (.leaf 0x1446E) (.node 0x6F982A548A (.leaf 0x1446F) (.leaf 0x14471))) (.node 0x6F982A578A (.node 0x6F982A568A (.leaf 0x14473) (.leaf 0x14475)) (.node 0x6F982A588A (.leaf 0x14476) (.leaf 0x1447A)))) (.node 0x6F982B538A (.node 0x6F982A5B8A (.node 0x6F982A5A8A (.leaf 0x1447D) (.leaf 0x1447E)) (.node 0x6F982A5C8A (.leaf 0x14482) (.leaf 0x14483))) (.node 0x6F982B558A (.node 0x6F982B548A (.leaf 0x14484) (.leaf 0x14487)) (.node 0x6F982B568A (.leaf 0x14488) (.leaf 0x14489))))) (nameTree_897)
def nameTree_899 : NameTree := .node 0x6F982E588A (.node 0x6F982D5A8A (.node 0x6F982D568A (.node 0x6F982D548A (.leaf 0x1449C) (.node 0x6F982D558A (.leaf 0x1449D) (.leaf 0x1449E))) (.node 0x6F982D588A (.node 0x6F982D578A (.leaf 0x1449F) (.leaf 0x144A0)) (.node 0x6F982D598A (.leaf 0x144A1) (.leaf 0x144A3)))) (.node 0x6F982E548A (.node 0x6F982D5C8A (.node 0x6F982D5B8A (.leaf 0x144A4) (.leaf 0x144A5)) (.node 0x6F982E538A (.leaf 0x144A6) (.leaf 0x144A7))) (.node 0x6F982E568A (.node 0x6F982E558A (.leaf 0x144A8) (.leaf 0x144A9)) (.node 0x6F982E578A (.leaf 0x144AA) (.leaf 0x144AB))))) (.node 0x6F982F558A (.node 0x6F982E5B8A (.node 0x6F982E598A (.leaf 0x144AC) (.node 0x6F982E5A8A (.leaf 0x144AD) (.leaf 0x144AE))) (.node 0x6F982F538A (.node 0x6F982E5C8A (.leaf 0x144AF) (.leaf 0x144B0)) (.node 0x6F982F548A (.leaf 0x144B1) (.leaf 0x144B2)))) (.node 0x6F982F598A (.node 0x6F982F578A (.node 0x6F982F568A (.leaf 0x144B3) (.leaf 0x144B4)) (.node 0x6F982F588A (.leaf 0x144B5) (.leaf 0x144B6))) (.node 0x6F982F5B8A (.node 0x6F982F5A8A (.leaf 0x144B7) (.leaf 0x144B8)) (.node 0x6F982F5C8A (.leaf 0x144B9) (.leaf 0x144BA)))))
def nameTree_900 : NameTree := .node 0x6F9832568A (.node 0x6F98315C8A (.node 0x6F98315A8A (.node 0x6F9831598A (.leaf 0x144CA) (.leaf 0x144CB)) (.node 0x6F98315B8A (.leaf 0x144CC) (.leaf 0x144CD))) (.node 0x6F9832548A (.node 0x6F9832538A (.leaf 0x144CE) (.leaf 0x144CF)) (.node 0x6F9832558A (.leaf 0x144D0) (.leaf 0x144D1)))) (.node 0x6F98325A8A (.node 0x6F9832588A (.node 0x6F9832578A (.leaf 0x144D2) (.leaf 0x144D3)) (.node 0x6F9832598A (.leaf 0x144D4) (.leaf 0x144D5))) (.node 0x6F98325C8A (.node 0x6F98325B8A (.leaf 0x144D6) (.leaf 0x144D7)) (.node 0x6F9833538A (.leaf 0x144D8) (.leaf 0x144D9))))
def nameTree_901 : NameTree := .node 0x6F9831588A (.node 0x6F98305A8A (.node 0x6F9830568A (.node 0x6F9830548A (.leaf 0x144BB) (.node 0x6F9830558A (.leaf 0x144BC) (.leaf 0x144BD))) (.node 0x6F9830588A (.node 0x6F9830578A (.leaf 0x144BE) (.leaf 0x144BF)) (.node 0x6F9830598A (.leaf 0x144C0) (.leaf 0x144C1)))) (.node 0x6F9831548A (.node 0x6F98305C8A (.node 0x6F98305B8A (.leaf 0x144C2) (.leaf 0x144C3)) (.node 0x6F9831538A (.leaf 0x144C4) (.leaf 0x144C5))) (.node 0x6F9831568A (.node 0x6F9831558A (.leaf 0x144C6) (.leaf 0x144C7)) (.node 0x6F9831578A (.leaf 0x144C8) (.leaf 0x144C9))))) (nameTree_900)
def nameTree_902 : NameTree := .node 0x6F992B578A (.node 0x6F992B538A (.node 0x6F992A5B8A (.node 0x6F992A5A8A (.leaf 0x144EB) (.leaf 0x144EC)) (.node 0x6F992A5C8A (.leaf 0x144EE) (.leaf 0x144EF))) (.node 0x6F992B558A (.node 0x6F992B548A (.leaf 0x144F1) (.leaf 0x144F2)) (.node 0x6F992B568A (.leaf 0x144F3) (.leaf 0x144F4)))) (.node 0x6F992B5B8A (.node 0x6F992B598A (.node 0x6F992B588A (.leaf 0x144F5) (.leaf 0x144F6)) (.node 0x6F992B5A8A (.leaf 0x144F8) (.leaf 0x144FA))) (.node 0x6F992C538A (.node 0x6F992B5C8A (.leaf 0x144FB) (.leaf 0x144FC)) (.node 0x6F992C548A (.leaf 0x144FD) (.leaf 0x144FE))))
def nameTree_903 : NameTree := .node 0x6F992A598A (.node 0x6F98335B8A (.node 0x6F9833578A (.node 0x6F9833558A (.leaf 0x144DA) (.node 0x6F9833568A (.leaf 0x144DB) (.leaf 0x144DC))) (.node 0x6F9833598A (.node 0x6F9833588A (.leaf 0x144DD) (.leaf 0x144DE)) (.node 0x6F98335A8A (.leaf 0x144DF) (.leaf 0x144E0)))) (.node 0x6F992A558A (.node 0x6F992A538A (.node 0x6F98335C8A (.leaf 0x144E1) (.leaf 0x144E2)) (.node 0x6F992A548A (.leaf 0x144E3) (.leaf 0x144E4))) (.node 0x6F992A578A (.node 0x6F992A568A (.leaf 0x144E5) (.leaf 0x144E8)) (.node 0x6F992A588A (.leaf 0x144E9) (.leaf 0x144EA))))) (nameTree_902)
def nameTree_904 : NameTree := .node 0x6F992E588A (.node 0x6F992E548A (.node 0x6F992D5C8A (.node 0x6F992D5B8A (.leaf 0x1450F) (.leaf 0x14510)) (.node 0x6F992E538A (.leaf 0x14511) (.leaf 0x14512))) (.node 0x6F992E568A (.node 0x6F992E558A (.leaf 0x14513) (.leaf 0x14514)) (.node 0x6F992E578A (.leaf 0x14515) (.leaf 0x14516)))) (.node 0x6F992E5C8A (.node 0x6F992E5A8A (.node 0x6F992E598A (.leaf 0x14517) (.leaf 0x14518)) (.node 0x6F992E5B8A (.leaf 0x14519) (.leaf 0x1451A))) (.node 0x6F992F548A (.node 0x6F992F538A (.leaf 0x1451B) (.leaf 0x1451C)) (.node 0x6F992F558A (.leaf 0x1451D) (.leaf 0x1451E))))
def nameTree_905 : NameTree := .node 0x6F992D5A8A (.node 0x6F992C5C8A (.node 0x6F992C588A (.node 0x6F992C568A (.leaf 0x144FF) (.node 0x6F992C578A (.leaf 0x14500) (.leaf 0x14501))) (.node 0x6F992C5A8A (.node 0x6F992C598A (.leaf 0x14502) (.leaf 0x14503)) (.node 0x6F992C5B8A (.leaf 0x14504) (.leaf 0x14506)))) (.node 0x6F992D568A (.node 0x6F992D548A (.node 0x6F992D538A (.leaf 0x14507) (.leaf 0x14508)) (.node 0x6F992D558A (.leaf 0x14509) (.leaf 0x1450A))) (.node 0x6F992D588A (.node 0x6F992D578A (.leaf 0x1450B) (.leaf 0x1450C)) (.node 0x6F992D598A (.leaf 0x1450D) (.leaf 0x1450E))))) (nameTree_904)
def nameTree_906 : NameTree := .node 0x6F99305B8A (.node 0x6F9930538A (.node 0x6F992F598A (.node 0x6F992F578A (.leaf 0x1451F) (.node 0x6F992F588A (.leaf 0x14520) (.leaf 0x14521))) (.node 0x6F992F5B8A (.node 0x6F992F5A8A (.leaf 0x14522) (.leaf 0x14523)) (.node 0x6F992F5C8A (.leaf 0x14524) (.leaf 0x14525)))) (.node 0x6F9930578A (.node 0x6F9930558A (.node 0x6F9930548A (.leaf 0x14526) (.leaf 0x14527)) (.node 0x6F9930568A (.leaf 0x14528) (.leaf 0x14529))) (.node 0x6F9930598A (.node 0x6F9930588A (.leaf 0x1452A) (.leaf 0x1452B)) (.node 0x6F99305A8A (.leaf 0x1452C) (.leaf 0x1452D))))) (.node 0x6F9931588A (.node 0x6F9931548A (.node 0x6F99305C8A (.leaf 0x1452F) (.node 0x6F9931538A (.leaf 0x14530) (.leaf 0x14531))) (.node 0x6F9931568A (.node 0x6F9931558A (.leaf 0x14532) (.leaf 0x14533)) (.node 0x6F9931578A (.leaf 0x14534) (.leaf 0x14535)))) (.node 0x6F99315C8A (.node 0x6F99315A8A (.node 0x6F9931598A (.leaf 0x14536) (.leaf 0x14537)) (.node 0x6F99315B8A (.leaf 0x14538) (.leaf 0x14539))) (.node 0x6F9932548A (.node 0x6F9932538A (.leaf 0x1453A) (.leaf 0x1453B)) (.node 0x6F9932558A (.leaf 0x1453C) (.leaf 0x1453D)))))
def nameTree_907 : NameTree := .node 0x6F9A2A598A (.node 0x6F9A2A558A (.node 0x6F9A2A538A (.node 0x6F99335C8A (.leaf 0x1454F) (.leaf 0x14550)) (.node 0x6F9A2A548A (.leaf 0x14552) (.leaf 0x14553))) (.node 0x6F9A2A578A (.node 0x6F9A2A568A (.leaf 0x14554) (.leaf 0x14555)) (.node 0x6F9A2A588A (.leaf 0x14556) (.leaf 0x14557)))) (.node 0x6F9A2B538A (.node 0x6F9A2A5B8A (.node 0x6F9A2A5A8A (.leaf 0x14558) (.leaf 0x14559)) (.node 0x6F9A2A5C8A (.leaf 0x1455A) (.leaf 0x1455B))) (.node 0x6F9A2B558A (.node 0x6F9A2B548A (.leaf 0x1455D) (.leaf 0x1455E)) (.node 0x6F9A2B568A (.leaf 0x1455F) (.leaf 0x14560))))
def nameTree_908 : NameTree := .node 0x6F99335B8A (.node 0x6F9933538A (.node 0x6F9932598A (.node 0x6F9932578A (.leaf 0x1453E) (.node 0x6F9932588A (.leaf 0x1453F) (.leaf 0x14540))) (.node 0x6F99325B8A (.node 0x6F99325A8A (.leaf 0x14541) (.leaf 0x14542)) (.node 0x6F99325C8A (.leaf 0x14543) (.leaf 0x14544)))) (.node 0x6F9933578A (.node 0x6F9933558A (.node 0x6F9933548A (.leaf 0x14546) (.leaf 0x14547)) (.node 0x6F9933568A (.leaf 0x14548) (.leaf 0x14549))) (.node 0x6F9933598A (.node 0x6F9933588A (.leaf 0x1454A) (.leaf 0x1454C)) (.node 0x6F99335A8A (.leaf 0x1454D) (.leaf 0x1454E))))) (nameTree_907)
def nameTree_909 : NameTree := .node 0x6F9A2D5B8A (.node 0x6F9A2D578A (.node 0x6F9A2D548A (.node 0x6F9A2D538A (.leaf 0x14570) (.leaf 0x14572)) (.node 0x6F9A2D568A (.leaf 0x14573) (.leaf 0x14577))) (.node 0x6F9A2D598A (.node 0x6F9A2D588A (.leaf 0x14578) (.leaf 0x14579)) (.node 0x6F9A2D5A8A (.leaf 0x1457A) (.leaf 0x1457E)))) (.node 0x6F9A2E558A (.node 0x6F9A2E538A (.node 0x6F9A2D5C8A (.leaf 0x1457F) (.leaf 0x14580)) (.node 0x6F9A2E548A (.leaf 0x14581) (.leaf 0x14582))) (.node 0x6F9A2E578A (.node 0x6F9A2E568A (.leaf 0x14583) (.leaf 0x14584)) (.node 0x6F9A2E588A (.leaf 0x14585) (.leaf 0x14586))))
def nameTree_910 : NameTree := .node 0x6F9A2C5C8A (.node 0x6F9A2C548A (.node 0x6F9A2B5A8A (.node 0x6F9A2B588A (.leaf 0x14561) (.node 0x6F9A2B598A (.leaf 0x14562) (.leaf 0x14563))) (.node 0x6F9A2B5C8A (.node 0x6F9A2B5B8A (.leaf 0x14564) (.leaf 0x14565)) (.node 0x6F9A2C538A (.leaf 0x14566) (.leaf 0x14567)))) (.node 0x6F9A2C588A (.node 0x6F9A2C568A (.node 0x6F9A2C558A (.leaf 0x14568) (.leaf 0x14569)) (.node 0x6F9A2C578A (.leaf 0x1456A) (.leaf 0x1456B))) (.node 0x6F9A2C5A8A (.node 0x6F9A2C598A (.leaf 0x1456C) (.leaf 0x1456D)) (.node 0x6F9A2C5B8A (.leaf 0x1456E) (.leaf 0x1456F))))) (nameTree_909)
def nameTree_911 : NameTree := .node 0x6F9A305C8A (.node 0x6F9A30588A (.node 0x6F9A30568A (.node 0x6F9A30558A (.leaf 0x14597) (.leaf 0x14598)) (.node 0x6F9A30578A (.leaf 0x14599) (.leaf 0x1459A))) (.node 0x6F9A305A8A (.node 0x6F9A30598A (.leaf 0x1459C) (.leaf 0x1459D)) (.node 0x6F9A305B8A (.leaf 0x1459E) (.leaf 0x1459F)))) (.node 0x6F9A31568A (.node 0x6F9A31548A (.node 0x6F9A31538A (.leaf 0x145A1) (.leaf 0x145A2)) (.node 0x6F9A31558A (.leaf 0x145A3) (.leaf 0x145A5))) (.node 0x6F9A31588A (.node 0x6F9A31578A (.leaf 0x145A6) (.leaf 0x145A7)) (.node 0x6F9A31598A (.leaf 0x145A8) (.leaf 0x145A9))))
def nameTree_912 : NameTree := .node 0x6F9A30548A (.node 0x6F9A2F568A (.node 0x6F9A2E5C8A (.node 0x6F9A2E5A8A (.leaf 0x14587) (.node 0x6F9A2E5B8A (.leaf 0x14588) (.leaf 0x14589))) (.node 0x6F9A2F548A (.node 0x6F9A2F538A (.leaf 0x1458A) (.leaf 0x1458B)) (.node 0x6F9A2F558A (.leaf 0x1458C) (.leaf 0x1458D)))) (.node 0x6F9A2F5A8A (.node 0x6F9A2F588A (.node 0x6F9A2F578A (.leaf 0x1458E) (.leaf 0x1458F)) (.node 0x6F9A2F598A (.leaf 0x14590) (.leaf 0x14591))) (.node 0x6F9A2F5C8A (.node 0x6F9A2F5B8A (.leaf 0x14592) (.leaf 0x14593)) (.node 0x6F9A30538A (.leaf 0x14594) (.leaf 0x14596))))) (nameTree_911)
def nameTree_913 : NameTree := .node 0x6F9A33578A (.node 0x6F9A32588A (.node 0x6F9A32538A (.node 0x6F9A315B8A (.leaf 0x145AA) (.node 0x6F9A315C8A (.leaf 0x145AB) (.leaf 0x145AC))) (.node 0x6F9A32558A (.node 0x6F9A32548A (.leaf 0x145AD) (.leaf 0x145AE)) (.node 0x6F9A32578A (.leaf 0x145B0) (.leaf 0x145B3)))) (.node 0x6F9A325C8A (.node 0x6F9A325A8A (.node 0x6F9A32598A (.leaf 0x145B4) (.leaf 0x145B5)) (.node 0x6F9A325B8A (.leaf 0x145B7) (.leaf 0x145B8))) (.node 0x6F9A33548A (.node 0x6F9A33538A (.leaf 0x145B9) (.leaf 0x145BA)) (.node 0x6F9A33558A (.leaf 0x145BB) (.leaf 0x145BC))))) (.node 0x6F9B2A548A (.node 0x6F9A335A8A (.node 0x6F9A33588A (.leaf 0x145BE) (.node 0x6F9A33598A (.leaf 0x145BF) (.leaf 0x145C0))) (.node 0x6F9A335C8A (.node 0x6F9A335B8A (.leaf 0x145C1) (.leaf 0x145C2)) (.node 0x6F9B2A538A (.leaf 0x145C3) (.leaf 0x145C4)))) (.node 0x6F9B2A588A (.node 0x6F9B2A568A (.node 0x6F9B2A558A (.leaf 0x145C5) (.leaf 0x145C6)) (.node 0x6F9B2A578A (.leaf 0x145C7) (.leaf 0x145C8))) (.node 0x6F9B2A5A8A (.node 0x6F9B2A598A (.leaf 0x145C9) (.leaf 0x145CA)) (.node 0x6F9B2A5B8A (.leaf 0x145CB) (.leaf 0x145CC)))))
def nameTree_914 : NameTree := .node 0x6F9B2D568A (.node 0x6F9B2C5C8A (.node 0x6F9B2C5A8A (.node 0x6F9B2C598A (.leaf 0x145DE) (.leaf 0x145DF)) (.node 0x6F9B2C5B8A (.leaf 0x145E0) (.leaf 0x145E1))) (.node 0x6F9B2D548A (.node 0x6F9B2D538A (.leaf 0x145E2) (.leaf 0x145E3)) (.node 0x6F9B2D558A (.leaf 0x145E4) (.leaf 0x145E5)))) (.node 0x6F9B2D5A8A (.node 0x6F9B2D588A (.node 0x6F9B2D578A (.leaf 0x145E6) (.leaf 0x145E7)) (.node 0x6F9B2D598A (.leaf 0x145E8) (.leaf 0x145E9))) (.node 0x6F9B2D5C8A (.node 0x6F9B2D5B8A (.leaf 0x145EA) (.leaf 0x145EB)) (.node 0x6F9B2E538A (.leaf 0x145EC) (.leaf 0x145ED))))
def nameTree_915 : NameTree := .node 0x6F9B2C588A (.node 0x6F9B2B5A8A (.node 0x6F9B2B568A (.node 0x6F9B2B548A (.leaf 0x145CD) (.node 0x6F9B2B558A (.leaf 0x145D0) (.leaf 0x145D1))) (.node 0x6F9B2B588A (.node 0x6F9B2B578A (.leaf 0x145D2) (.leaf 0x145D3)) (.node 0x6F9B2B598A (.leaf 0x145D4) (.leaf 0x145D5)))) (.node 0x6F9B2C548A (.node 0x6F9B2B5C8A (.node 0x6F9B2B5B8A (.leaf 0x145D6) (.leaf 0x145D7)) (.node 0x6F9B2C538A (.leaf 0x145D8) (.leaf 0x145D9))) (.node 0x6F9B2C568A (.node 0x6F9B2C558A (.leaf 0x145DA) (.leaf 0x145DB)) (.node 0x6F9B2C578A (.leaf 0x145DC) (.leaf 0x145DD))))) (nameTree_914)
def nameTree_916 : NameTree := .node 0x6F9B30578A (.node 0x6F9B30538A (.node 0x6F9B2F5B8A (.node 0x6F9B2F5A8A (.leaf 0x145FE) (.leaf 0x145FF)) (.node 0x6F9B2F5C8A (.leaf 0x14601) (.leaf 0x14602))) (.node 0x6F9B30558A (.node 0x6F9B30548A (.leaf 0x14603) (.leaf 0x14604)) (.node 0x6F9B30568A (.leaf 0x14605) (.leaf 0x14606)))) (.node 0x6F9B305B8A (.node 0x6F9B30598A (.node 0x6F9B30588A (.leaf 0x14607) (.leaf 0x14608)) (.node 0x6F9B305A8A (.leaf 0x14609) (.leaf 0x1460A))) (.node 0x6F9B31538A (.node 0x6F9B305C8A (.leaf 0x1460B) (.leaf 0x1460C)) (.node 0x6F9B31548A (.leaf 0x1460D) (.leaf 0x1460E))))
def nameTree_917 : NameTree := .node 0x6F9B2F598A (.node 0x6F9B2E5B8A (.node 0x6F9B2E578A (.node 0x6F9B2E558A (.leaf 0x145EE) (.node 0x6F9B2E568A (.leaf 0x145EF) (.leaf 0x145F0))) (.node 0x6F9B2E598A (.node 0x6F9B2E588A (.leaf 0x145F1) (.leaf 0x145F2)) (.node 0x6F9B2E5A8A (.leaf 0x145F3) (.leaf 0x145F4)))) (.node 0x6F9B2F558A (.node 0x6F9B2F538A (.node 0x6F9B2E5C8A (.leaf 0x145F5) (.leaf 0x145F6)) (.node 0x6F9B2F548A (.leaf 0x145F7) (.leaf 0x145F9))) (.node 0x6F9B2F578A (.node 0x6F9B2F568A (.leaf 0x145FA) (.leaf 0x145FB)) (.node 0x6F9B2F588A (.leaf 0x145FC) (.leaf 0x145FD))))) (nameTree_916)
def nameTree_918 : NameTree := .node 0x6F9B33588A (.node 0x6F9B33548A (.node 0x6F9B325C8A (.node 0x6F9B325B8A (.leaf 0x1461E) (.leaf 0x1461F)) (.node 0x6F9B33538A (.leaf 0x14620) (.leaf 0x14621))) (.node 0x6F9B33568A (.node 0x6F9B33558A (.leaf 0x14622) (.leaf 0x14623)) (.node 0x6F9B33578A (.leaf 0x14624) (.leaf 0x14625)))) (.node 0x6F9C2A558A (.node 0x6F9B335A8A (.node 0x6F9B33598A (.leaf 0x14626) (.leaf 0x14627)) (.node 0x6F9C2A548A (.leaf 0x14628) (.leaf 0x14629))) (.node 0x6F9C2A578A (.node 0x6F9C2A568A (.leaf 0x1462A) (.leaf 0x1462B)) (.node 0x6F9C2A588A (.leaf 0x1462C) (.leaf 0x1462D))))
def nameTree_919 : NameTree := .node 0x6F9B325A8A (.node 0x6F9B315C8A (.node 0x6F9B31588A (.node 0x6F9B31568A (.leaf 0x1460F) (.node 0x6F9B31578A (.leaf 0x14610) (.leaf 0x14611))) (.node 0x6F9B315A8A (.node 0x6F9B31598A (.leaf 0x14612) (.leaf 0x14613)) (.node 0x6F9B315B8A (.leaf 0x14614) (.leaf 0x14615)))) (.node 0x6F9B32568A (.node 0x6F9B32548A (.node 0x6F9B32538A (.leaf 0x14616) (.leaf 0x14617)) (.node 0x6F9B32558A (.leaf 0x14618) (.leaf 0x14619))) (.node 0x6F9B32588A (.node 0x6F9B32578A (.leaf 0x1461A) (.leaf 0x1461B)) (.node 0x6F9B32598A (.leaf 0x1461C) (.leaf 0x1461D))))) (nameTree_918)
def nameTree_920 : NameTree := .node 0x6F9C2C5C8A (.node 0x6F9C2C588A (.node 0x6F9C2C568A (.node 0x6F9C2C558A (.leaf 0x1463D) (.leaf 0x1463E)) (.node 0x6F9C2C578A (.leaf 0x1463F) (.leaf 0x14640))) (.node 0x6F9C2C5A8A (.node 0x6F9C2C598A (.leaf 0x14641) (.leaf 0x14642)) (.node 0x6F9C2C5B8A (.leaf 0x14643) (.leaf 0x14644)))) (.node 0x6FB0A38192 (.node 0x6FA7CCD5E3 (.node 0x6F9C2D538A (.leaf 0x14645) (.leaf 0x14646)) (.node 0x6FAB5A6A19 (.leaf 0x1213A) (.leaf 0x1F911))) (.node 0x6FBCF96F43 (.node 0x6FB0FB2CDB (.leaf 0x121AB) (.leaf 0x115CF)) (.node 0x6FC15E9F37 (.leaf 0x10A33) (.leaf 0x1D0BE))))
def nameTree_921 : NameTree := .node 0x6F9C2C548A (.node 0x6F9C2B568A (.node 0x6F9C2A5C8A (.node 0x6F9C2A5A8A (.leaf 0x1462E) (.node 0x6F9C2A5B8A (.leaf 0x1462F) (.leaf 0x14630))) (.node 0x6F9C2B548A (.node 0x6F9C2B538A (.leaf 0x14631) (.leaf 0x14632)) (.node 0x6F9C2B558A (.leaf 0x14633) (.leaf 0x14634)))) (.node 0x6F9C2B5A8A (.node 0x6F9C2B588A (.node 0x6F9C2B578A (.leaf 0x14635) (.leaf 0x14636)) (.node 0x6F9C2B598A (.leaf 0x14637) (.leaf 0x14638))) (.node 0x6F9C2B5C8A (.node 0x6F9C2B5B8A (.leaf 0x14639) (.leaf 0x1463A)) (.node 0x6F9C2C538A (.leaf 0x1463B) (.leaf 0x1463C))))) (nameTree_920)
def nameTree_922 : NameTree := .node 0x6FCB06CDB4 (.node 0x6FCAFDCAB4 (.node 0x6FCAF8CAB4 (.node 0x6FCAF6D7B4 (.leaf 0x120C7) (.leaf 0x120C9)) (.node 0x6FCAF8D2B4 (.leaf 0x124BB) (.leaf 0x120CD))) (.node 0x6FCAFFCEB4 (.node 0x6FCAFED2B4 (.leaf 0x120DD) (.leaf 0x120DF)) (.node 0x6FCB01CAB4 (.leaf 0x124C4) (.leaf 0x120E2)))) (.node 0x6FD73522CB (.node 0x6FCF5CC6F3 (.node 0x6FCC0E5610 (.leaf 0x120EB) (.leaf 0x115D5)) (.node 0x6FD4A795ED (.leaf 0x2B19) (.leaf 0x1D9B1))) (.node 0x6FDFCAA92C (.node 0x6FDD61C0DE (.leaf 0x1F9C) (.leaf 0x29D2)) (.node 0x6FE29002CD (.leaf 0x16B3F) (.leaf 0x1F4B9))))
def nameTree_923 : NameTree := .node 0x6FCAF6D5B4 (.node 0x6FC773629F (.node 0x6FC7735E9F (.node 0x6FC7735C9F (.leaf 0x1F0EA) (.node 0x6FC7735D9F (.leaf 0x1F0EB) (.leaf 0x1F0EC))) (.node 0x6FC773609F (.node 0x6FC7735F9F (.leaf 0x1F0ED) (.leaf 0x1F0EE)) (.node 0x6FC773619F (.leaf 0x1F0EF) (.leaf 0x1F0F0)))) (.node 0x6FC7745C9F (.node 0x6FC773649F (.node 0x6FC773639F (.leaf 0x1F0F1) (.leaf 0x1F0F2)) (.node 0x6FC7745B9F (.leaf 0x1F0F3) (.leaf 0x1F0F4))) (.node 0x6FCAF5CAB4 (.node 0x6FCAF2D7B4 (.leaf 0x1F0F5) (.leaf 0x120BC)) (.node 0x6FCAF5D2B4 (.leaf 0x120C3) (.leaf 0x120C4))))) (nameTree_922)
def nameTree_924 : NameTree := .node 0x70071765A7 (.node 0x70071761A7 (.node 0x7007175FA7 (.node 0x70016EE6EB (.leaf 0xAC3) (.leaf 0x20D2)) (.node 0x70071760A7 (.leaf 0x1F04D) (.leaf 0x1F04E))) (.node 0x70071763A7 (.node 0x70071762A7 (.leaf 0x1F04F) (.leaf 0x1F050)) (.node 0x70071764A7 (.leaf 0x1F051) (.leaf 0x1F052)))) (.node 0x7010AA835D (.node 0x700C17A5FD (.node 0x7008533322 (.leaf 0x1F053) (.leaf 0x296A)) (.node 0x700D037889 (.leaf 0xE29) (.leaf 0x1F460))) (.node 0x7019A73126 (.node 0x701748B33D (.leaf 0xDF) (.leaf 0xF00)) (.node 0x702AD52C0F (.leaf 0x1F678) (.leaf 0x1F685))))
def nameTree_925 : NameTree := .node 0x6FFF0FAF24 (.node 0x6FF63E5852 (.node 0x6FF2099EBA (.node 0x6FE9D0E183 (.leaf 0xA8D5) (.node 0x6FED0BF570 (.leaf 0x19B0) (.leaf 0xA8D4))) (.node 0x6FF6375852 (.node 0x6FF4DD96E1 (.leaf 0x110F5) (.leaf 0x16BB)) (.node 0x6FF63B5C52 (.leaf 0x2DBB) (.leaf 0x2DBC)))) (.node 0x6FF63E6C52 (.node 0x6FF63E6052 (.node 0x6FF63E5C52 (.leaf 0xAB20) (.leaf 0xAB25)) (.node 0x6FF63E6652 (.leaf 0xAB22) (.leaf 0xAB26))) (.node 0x6FFEF8992F (.node 0x6FF808ABBA (.leaf 0xAB21) (.leaf 0x110F4)) (.node 0x6FFF0FA924 (.leaf 0x1F707) (.leaf 0xAE2))))) (nameTree_924)
def nameTree_926 : NameTree := .node 0x70773BE403 (.node 0x706D29E703 (.node 0x70680C8E76 (.node 0x70612432B4 (.leaf 0x1220C) (.leaf 0x1220D)) (.node 0x70693DE003 (.leaf 0x1D8BF) (.leaf 0x1205F))) (.node 0x70722B7A46 (.node 0x706E3DE903 (.leaf 0x12063) (.leaf 0x12067)) (.node 0x70762B613C (.leaf 0x21A) (.leaf 0x1FBE)))) (.node 0x708E8D6521 (.node 0x7082EE091E (.node 0x707D129DA9 (.leaf 0x1206D) (.leaf 0x1F751)) (.node 0x7082F98037 (.leaf 0x55B) (.leaf 0xA72))) (.node 0x709102EE96 (.node 0x708EF97837 (.leaf 0x16B68) (.leaf 0xA73)) (.node 0x7098D7A8BE (.leaf 0x1D18C) (.leaf 0x1033A))))
def nameTree_927 : NameTree := .node 0x70612422B4 (.node 0x7048713BD3 (.node 0x703F236911 (.node 0x703211CBF6 (.leaf 0x10F8) (.node 0x703AC9BB41 (.leaf 0x259A) (.leaf 0xFB7C))) (.node 0x7045C8965A (.node 0x7045C75AEB (.leaf 0x1CF5) (.leaf 0x16977)) (.node 0x7045C8AFEB (.leaf 0x16929) (.leaf 0x16989)))) (.node 0x705CBE4887 (.node 0x704DF33E39 (.node 0x704B7A39C1 (.leaf 0xFBAE) (.leaf 0xA764)) (.node 0x705C7BB547 (.leaf 0x109FE) (.leaf 0x16868))) (.node 0x70611F2AB4 (.node 0x70611729B4 (.leaf 0x302) (.leaf 0x121FE)) (.node 0x70612126B4 (.leaf 0x12204) (.leaf 0x12208))))) (nameTree_926)
def nameTree_928 : NameTree := .node 0x6F982D538A (.node 0x6E5C7A8937 (.node 0x6DA992ED84 (.node 0x6D071762A7 (.node 0x6CC452CFA3 (nameTree_870) (nameTree_872)) (.node 0x6D762EA3E4 (nameTree_874) (nameTree_876))) (.node 0x6E07175FA7 (.node 0x6DCEDA3CF9 (nameTree_877) (nameTree_879)) (.node 0x6E2B271AAB (nameTree_881) (nameTree_883)))) (.node 0x6F972A598A (.node 0x6F457CEE63 (.node 0x6EE4FF5D6B (nameTree_884) (nameTree_886)) (.node 0x6F93FCC6B2 (nameTree_888) (nameTree_890))) (.node 0x6F97305B8A (.node 0x6F972D5A8A (nameTree_892) (nameTree_894)) (.node 0x6F97335C8A (nameTree_896) (nameTree_898))))) (.node 0x6F9A315A8A (.node 0x6F992F568A (.node 0x6F9833548A (.node 0x6F9830538A (nameTree_899) (nameTree_901)) (.node 0x6F992C558A (nameTree_903) (nameTree_905))) (.node 0x6F9A2B578A (.node 0x6F9932568A (nameTree_906) (nameTree_908)) (.node 0x6F9A2E598A (nameTree_910) (nameTree_912)))) (.node 0x6F9C2A598A (.node 0x6F9B2E548A (.node 0x6F9B2A5C8A (nameTree_913) (nameTree_915)) (.node 0x6F9B31558A (nameTree_917) (nameTree_919))) (.node 0x6FE70CE870 (.node 0x6FC7735B9F (nameTree_921) (nameTree_923)) (.node 0x702BE869AB (nameTree_925) (nameTree_927)))))
def nameTree_929 : NameTree := .node 0x70D22BF27A (.node 0x70B4242D2B (.node 0x70A8FFDEA8 (.node 0x70A41EE667 (.leaf 0x2498) (.node 0x70A8EA15AB (.leaf 0x1F4F8) (.leaf 0x10B3F))) (.node 0x70B4241D2B (.node 0x70B424192B (.leaf 0xDCA) (.leaf 0x12000)) (.node 0x70B424212B (.leaf 0x1208A) (.leaf 0x1213F)))) (.node 0x70BF3E5674 (.node 0x70B97DA1EE (.node 0x70B599204F (.leaf 0x1230B) (.leaf 0x27C8)) (.node 0x70B97DA7EE (.leaf 0xC8C) (.leaf 0xC8B))) (.node 0x70CE2D9BD1 (.node 0x70C92C9428 (.leaf 0x32B8) (.leaf 0x1D0E8)) (.node 0x70CFF613E8 (.leaf 0x1D017) (.leaf 0x1D962))))) (.node 0x70E9DD5B6F (.node 0x70D719A5AD (.node 0x70D2320AC4 (.leaf 0x1D087) (.node 0x70D52C8F0F (.leaf 0x327C) (.leaf 0x1D029))) (.node 0x70E323B6AA (.node 0x70D8799DC9 (.leaf 0x1F86) (.leaf 0x1101E)) (.node 0x70E70CB4C4 (.leaf 0xAB4F) (.leaf 0x7F1)))) (.node 0x70F0CC3D5F (.node 0x70EAB919CC (.node 0x70E9E00722 (.leaf 0x2BB8) (.leaf 0x2AC8)) (.node 0x70ECF7225B (.leaf 0x2C5B) (.leaf 0x2C0E))) (.node 0x70F63758A9 (.node 0x70F53ADB00 (.leaf 0x1680E) (.leaf 0x20A9)) (.node 0x70F63B5CA9 (.leaf 0xAB0B) (.leaf 0xAB0C)))))
def nameTree_930 : NameTree := .node 0x712DCD3F99 (.node 0x711FE1223A (.node 0x710F7846F2 (.node 0x710F7346F2 (.leaf 0x1BC4) (.leaf 0x1BCA)) (.node 0x71140BC541 (.leaf 0x1BDA) (.leaf 0x2B69))) (.node 0x712DC54499 (.node 0x712DC44B99 (.leaf 0x1D1B9) (.leaf 0x12297)) (.node 0x712DC83799 (.leaf 0x1252E) (.leaf 0x12299)))) (.node 0x712DD54899 (.node 0x712DD53899 (.node 0x712DD52899 (.leaf 0x1229D) (.leaf 0x122A2)) (.node 0x712DD54399 (.leaf 0x122A3) (.leaf 0x122A4))) (.node 0x7136B17BE9 (.node 0x712F8967FA (.leaf 0x122A5) (.leaf 0x1D89D)) (.node 0x713A1EFA95 (.leaf 0x4DFB) (.leaf 0xAEF))))
def nameTree_931 : NameTree := .node 0x710F6D46F2 (.node 0x7107175FA7 (.node 0x70F9D0F9FC (.node 0x70F8109DFD (.leaf 0x1D182) (.node 0x70F91C163C (.leaf 0xE28) (.leaf 0x2544))) (.node 0x71023BEDF3 (.node 0x70F9DCF9FC (.leaf 0xD20) (.leaf 0xD3A)) (.node 0x7103C47802 (.leaf 0x1F360) (.leaf 0x1F55C)))) (.node 0x71071763A7 (.node 0x71071761A7 (.node 0x71071760A7 (.leaf 0x1F054) (.leaf 0x1F055)) (.node 0x71071762A7 (.leaf 0x1F056) (.leaf 0x1F057))) (.node 0x71071765A7 (.node 0x71071764A7 (.leaf 0x1F058) (.leaf 0x1F059)) (.node 0x7107F78E00 (.leaf 0x1F05A) (.leaf 0xFB29))))) (nameTree_930)
def nameTree_932 : NameTree := .node 0x716B3097AE (.node 0x716AEE8A87 (.node 0x716AEB5CB4 (.node 0x716AEA7687 (.leaf 0x12345) (.leaf 0x12348)) (.node 0x716AEB6EB4 (.leaf 0x12331) (.leaf 0x1253D))) (.node 0x716B019B2A (.node 0x716AEF7987 (.leaf 0x1234B) (.leaf 0x1234D)) (.node 0x716B2E485A (.leaf 0x12353) (.leaf 0x120C0)))) (.node 0x7170747832 (.node 0x716BBE215A (.node 0x716BB4255A (.leaf 0x120C2) (.leaf 0x124BC)) (.node 0x716E29E0D5 (.leaf 0x124BD) (.leaf 0x1D1C4))) (.node 0x7172D4C8D6 (.node 0x71716ADB2F (.leaf 0x2B22) (.leaf 0x12338)) (.node 0x71766E6A85 (.leaf 0x2BC4) (.leaf 0x34C))))
def nameTree_933 : NameTree := .node 0x716AE57E87 (.node 0x716096F554 (.node 0x714B533F99 (.node 0x714333764E (.leaf 0x1D5D) (.node 0x71490418BE (.leaf 0x2FF9) (.leaf 0x1F5F8))) (.node 0x714C265527 (.node 0x714B663A99 (.leaf 0x122F4) (.leaf 0x122F9)) (.node 0x715883A6B9 (.leaf 0x1396) (.leaf 0x10AF1)))) (.node 0x716AE17687 (.node 0x716AD776B4 (.node 0x7161C204F0 (.leaf 0x2ED7) (.leaf 0x1EC0)) (.node 0x716ADE6BB4 (.leaf 0x1232E) (.leaf 0x1232F))) (.node 0x716AE27687 (.node 0x716AE18A87 (.leaf 0x1233C) (.leaf 0x12340)) (.node 0x716AE38287 (.leaf 0x12341) (.leaf 0x12343))))) (nameTree_932)
def nameTree_934 : NameTree := .node 0x71DCFE975F (.node 0x71C876D3E8 (.node 0x71B621AEF7 (.node 0x71B51961EA (.leaf 0x32BD) (.leaf 0x5AD)) (.node 0x71C1B393B2 (.leaf 0x1EE00) (.leaf 0x1D7E))) (.node 0x71CCD2F0DB (.node 0x71CBCDF8DB (.leaf 0x10A9F) (.leaf 0x10356)) (.node 0x71D538DE93 (.leaf 0x10358) (.leaf 0x1F41D)))) (.node 0x71E33421D5 (.node 0x71DF63DF81 (.node 0x71DDB014A8 (.leaf 0x11D45) (.leaf 0x2BC1)) (.node 0x71E31AC201 (.leaf 0xA658) (.leaf 0x1EE3))) (.node 0x71F13812D5 (.node 0x71E43F26D5 (.leaf 0x2EE0) (.leaf 0x2EDC)) (.node 0x71FBCC0B39 (.leaf 0x2EC5) (.leaf 0x8A1))))
def nameTree_935 : NameTree := .node 0x71B441605B (.node 0x718E5F5A91 (.node 0x717FB08E5C (.node 0x717CD63667 (.leaf 0x2C57) (.node 0x717F98900F (.leaf 0x3DF) (.leaf 0x1F73A))) (.node 0x718E5F4A91 (.node 0x718025FE3E (.leaf 0x1F70A) (.leaf 0x1D6C1)) (.node 0x718E5F4E91 (.leaf 0x17C1) (.leaf 0x17B7)))) (.node 0x719A94322D (.node 0x7192248DCA (.node 0x718E5F5E91 (.leaf 0x17BB) (.leaf 0x17B9)) (.node 0x719432382D (.leaf 0x12527) (.leaf 0x1008B))) (.node 0x719FD4DB00 (.node 0x719EF67C97 (.leaf 0x1008D) (.leaf 0x2CF)) (.node 0x71AFDA33EA (.leaf 0xA5) (.leaf 0x869))))) (nameTree_934)
def nameTree_936 : NameTree := .node 0x722B21025B (.node 0x72071763A7 (.node 0x7207175FA7 (.node 0x7200860D03 (.leaf 0x118DD) (.node 0x7201B1662A (.leaf 0x1F4FE) (.leaf 0x1D8C8))) (.node 0x72071761A7 (.node 0x72071760A7 (.leaf 0x1F05B) (.leaf 0x1F05C)) (.node 0x72071762A7 (.leaf 0x1F05D) (.leaf 0x1F05E)))) (.node 0x7222B584F7 (.node 0x72071765A7 (.node 0x72071764A7 (.leaf 0x1F05F) (.leaf 0x1F060)) (.node 0x7215DC55B5 (.leaf 0x1F061) (.leaf 0x1BC90))) (.node 0x722B19025B (.node 0x722B18FA5B (.leaf 0x1AA) (.leaf 0x11D31)) (.node 0x722B190E5B (.leaf 0x11D3C) (.leaf 0x11D3F))))) (.node 0x724A560230 (.node 0x72326ECD49 (.node 0x722B2D0E5B (.leaf 0x11D33) (.node 0x722DBF2AEB (.leaf 0x11D35) (.leaf 0x135D))) (.node 0x7246D9AD57 (.node 0x72430C7C28 (.leaf 0x76C) (.leaf 0x4DFA)) (.node 0x72480DA0E5 (.leaf 0x12412) (.leaf 0x16B3B)))) (.node 0x7254246DB6 (.node 0x7251274DCE (.node 0x724C4BF0D9 (.leaf 0x626) (.leaf 0x12489)) (.node 0x7251895369 (.leaf 0x17C7) (.leaf 0x2B31))) (.node 0x7257BB890C (.node 0x7257BB839C (.leaf 0x2977) (.leaf 0x16F1D)) (.node 0x725852D457 (.leaf 0x16F1C) (.leaf 0x1D905)))))
def nameTree_937 : NameTree := .node 0x7294798A5C (.node 0x728F1335D9 (.node 0x728BFD35D9 (.node 0x728B7C360D (.leaf 0x2B3E) (.leaf 0x21DC)) (.node 0x728F0B37D9 (.leaf 0x16B89) (.leaf 0x16B82))) (.node 0x7290053BD9 (.node 0x728FCE496E (.leaf 0x16B8E) (.leaf 0x1F691)) (.node 0x72933C44EF (.leaf 0x16B7F) (.leaf 0x2771)))) (.node 0x72997993A9 (.node 0x7294799B0A (.node 0x7294799A5C (.leaf 0x121B8) (.leaf 0x121EC)) (.node 0x7299798BF6 (.leaf 0x12244) (.leaf 0x12046))) (.node 0x729A1332D9 (.node 0x7299FD32D9 (.leaf 0x120F4) (.leaf 0x16B8A)) (.node 0x729CFD32D9 (.leaf 0x16B8F) (.leaf 0x16B8C))))
def nameTree_938 : NameTree := .node 0x728A87EBAE (.node 0x72766D6223 (.node 0x72648EF354 (.node 0x725E3F9E51 (.leaf 0xFC11) (.node 0x726191B4C0 (.leaf 0x2667) (.leaf 0x1F5B0))) (.node 0x726899F254 (.node 0x7265A4A031 (.leaf 0x2E8B) (.leaf 0x1D8FB)) (.node 0x726F8A6F47 (.leaf 0x2EAF) (.leaf 0x1211C)))) (.node 0x7282EBA6B2 (.node 0x727CF0E0D1 (.node 0x727995C5A7 (.leaf 0x19EE) (.leaf 0x10096)) (.node 0x727FEF28A7 (.leaf 0x1F4AF) (.leaf 0x1009D))) (.node 0x7286D3B8B9 (.node 0x7286CE4536 (.leaf 0x1D9CA) (.leaf 0x1F4DB)) (.node 0x7289FD32D9 (.leaf 0x10348) (.leaf 0x16B8B))))) (nameTree_937)
def nameTree_939 : NameTree := .node 0x72A8FE6C93 (.node 0x72A8FE6693 (.node 0x72A8FE6393 (.node 0x72A8FE6293 (.leaf 0x10CD3) (.leaf 0x10CD6)) (.node 0x72A8FE6493 (.leaf 0x10CD8) (.leaf 0x10CD9))) (.node 0x72A8FE6993 (.node 0x72A8FE6893 (.leaf 0x10CE0) (.leaf 0x10CE2)) (.node 0x72A8FE6A93 (.leaf 0x10CE4) (.leaf 0x10CE6)))) (.node 0x72A90E6993 (.node 0x72A9025F93 (.node 0x72A8FE7093 (.leaf 0x10CEE) (.leaf 0x10CEF)) (.node 0x72A9086593 (.leaf 0x10CD1) (.leaf 0x10CDC))) (.node 0x72A978D938 (.node 0x72A90E6B93 (.leaf 0x10CF2) (.leaf 0x10CEB)) (.node 0x72AB114C2B (.leaf 0x1D8AD) (.leaf 0xFC0E))))
def nameTree_940 : NameTree := .node 0x72A8FE6193 (.node 0x72A8FE5893 (.node 0x729F7979A4 (.node 0x729F7976F6 (.leaf 0x2C80) (.node 0x729F7978A4 (.leaf 0x12048) (.leaf 0x12070))) (.node 0x72A8FA5793 (.node 0x72A0807AB3 (.leaf 0x12071) (.leaf 0x12227)) (.node 0x72A8FA6193 (.leaf 0x10CC1) (.leaf 0x10CD4)))) (.node 0x72A8FE5C93 (.node 0x72A8FE5A93 (.node 0x72A8FE5993 (.leaf 0x10CC2) (.leaf 0x10CC4)) (.node 0x72A8FE5B93 (.leaf 0x10CC7) (.leaf 0x10CCB))) (.node 0x72A8FE5E93 (.node 0x72A8FE5D93 (.leaf 0x10CCC) (.leaf 0x10CCD)) (.node 0x72A8FE6093 (.leaf 0x10CCF) (.leaf 0x10CD2))))) (nameTree_939)
def nameTree_941 : NameTree := .node 0x72FB9600D5 (.node 0x72FB8C04D5 (.node 0x72FB820ED5 (.node 0x72FB7E04D5 (.leaf 0x25D1) (.leaf 0xFFC3)) (.node 0x72FB8214D5 (.leaf 0xFFC6) (.leaf 0xFFDA))) (.node 0x72FB9404D5 (.node 0x72FB9400D5 (.leaf 0xFFCF) (.leaf 0xFFCD)) (.node 0x72FB9408D5 (.leaf 0xFFD5) (.leaf 0xFFD6)))) (.node 0x72FB9614D5 (.node 0x72FB9608D5 (.node 0x72FB9604D5 (.leaf 0xFFC4) (.leaf 0xFFCB)) (.node 0x72FB960ED5 (.leaf 0xFFDB) (.leaf 0xFFD2))) (.node 0x72FF3A91D6 (.node 0x72FF1C5BB6 (.leaf 0xFFD7) (.leaf 0x1D8CA)) (.node 0x72FF4B91D6 (.leaf 0x189C) (.leaf 0x18A0))))
def nameTree_942 : NameTree := .node 0x72F9949092 (.node 0x72E28773D2 (.node 0x72D32084D1 (.node 0x72B7651BC2 (.leaf 0x1D7F1) (.node 0x72B813BF7B (.leaf 0x2B5F) (.leaf 0x1D7F0))) (.node 0x72E0A99843 (.node 0x72DC5E10FD (.leaf 0x1D08D) (.leaf 0x96B)) (.node 0x72E25D1DFD (.leaf 0x1D118) (.leaf 0x96A)))) (.node 0x72F4BA2A2C (.node 0x72EF9A7861 (.node 0x72E77969E5 (.leaf 0x2552) (.leaf 0x10A3F)) (.node 0x72F0CF0BDA (.leaf 0x1D11B) (.leaf 0x1018A))) (.node 0x72F8F3E14F (.node 0x72F67E1481 (.leaf 0x1F3BD) (.leaf 0x1BC94)) (.node 0x72F94B5375 (.leaf 0x16AD) (.leaf 0x10B90))))) (nameTree_941)
def nameTree_943 : NameTree := .node 0x7337774DD9 (.node 0x73208C9325 (.node 0x73143F96A3 (.node 0x730C072C4C (.leaf 0x18A5) (.node 0x73131889D5 (.leaf 0xFD70) (.leaf 0x1D064))) (.node 0x731C918025 (.node 0x731772C067 (.leaf 0x1CE9) (.leaf 0xD76)) (.node 0x731E86BA53 (.leaf 0x2474) (.leaf 0x3199)))) (.node 0x7327827D1E (.node 0x7323B3350A (.node 0x73219A8A25 (.leaf 0x2479) (.leaf 0x2475)) (.node 0x7325FE30C4 (.leaf 0x1DA2C) (.leaf 0x303A))) (.node 0x732D13FEC7 (.node 0x732933415A (.leaf 0x1F5A4) (.leaf 0x11A36)) (.node 0x732E540AB2 (.leaf 0x1D8A1) (.leaf 0x77A))))) (.node 0x73529F1C9A (.node 0x73417849D9 (.node 0x733A76B931 (.leaf 0x1248A) (.node 0x733C7DB796 (.leaf 0x2919) (.leaf 0x1F713))) (.node 0x734C2F657E (.node 0x7349A5A367 (.leaf 0x12075) (.leaf 0x1DA1B)) (.node 0x7351B54C92 (.leaf 0x1392) (.leaf 0x120EF)))) (.node 0x737C883C13 (.node 0x73659E87E2 (.node 0x7357C5C086 (.leaf 0x1F570) (.leaf 0x17CA)) (.node 0x73689BF972 (.leaf 0x1FA4) (.leaf 0x3011))) (.node 0x737D813C13 (.node 0x737C8B3A13 (.leaf 0x10530) (.leaf 0x10548)) (.node 0x737E7D3A13 (.leaf 0x10531) (.leaf 0x10542)))))
def nameTree_944 : NameTree := .node 0x73A49AE287 (.node 0x738F7D3B13 (.node 0x738E842913 (.node 0x738D7D3C13 (.leaf 0x10547) (.leaf 0x10559)) (.node 0x738EBF6ADC (.leaf 0x1053D) (.leaf 0x25C2))) (.node 0x7395842913 (.node 0x739474E13C (.leaf 0x10538) (.leaf 0x1F96A)) (.node 0x739FEC7053 (.leaf 0x1053B) (.leaf 0x10867)))) (.node 0x73B4ECE4E4 (.node 0x73AC2E25C0 (.node 0x73A4B9075C (.leaf 0xFD25) (.leaf 0xFD28)) (.node 0x73B1DC33EA (.leaf 0x2927) (.leaf 0x865))) (.node 0x73B4F0F4E4 (.node 0x73B4F0EEE4 (.leaf 0x1162) (.leaf 0x1165)) (.node 0x73B4FAE4E4 (.leaf 0x1173) (.leaf 0x116C))))
def nameTree_945 : NameTree := .node 0x738C7D4113 (.node 0x73848E2A13 (.node 0x7380953613 (.node 0x737E843113 (.leaf 0x10539) (.node 0x737F7D3C13 (.leaf 0x1054A) (.leaf 0x10533))) (.node 0x73818C9181 (.node 0x73817D3513 (.leaf 0x10536) (.leaf 0x10554)) (.node 0x7382853513 (.leaf 0x8B0) (.leaf 0x10532)))) (.node 0x73877D3613 (.node 0x73867D3A13 (.node 0x7384933613 (.leaf 0x1053C) (.leaf 0x1055E)) (.node 0x7386853F13 (.leaf 0x10544) (.leaf 0x10563))) (.node 0x738B813613 (.node 0x73887D3913 (.leaf 0x1053E) (.leaf 0x1054C)) (.node 0x738C7D3A13 (.leaf 0x10557) (.leaf 0x1054D))))) (nameTree_944)
def nameTree_946 : NameTree := .node 0x73F146CD8F (.node 0x73DB3C7504 (.node 0x73CFF0503D (.node 0x73C9BDD969 (.leaf 0x1D00F) (.leaf 0x120FA)) (.node 0x73D09E4E59 (.leaf 0xFB6B) (.leaf 0xA8E7))) (.node 0x73E115CA89 (.node 0x73DCE515E8 (.leaf 0x2B06) (.leaf 0xFDB8)) (.node 0x73E624A2A6 (.leaf 0x2C3F) (.leaf 0x26A3)))) (.node 0x73FC7937D2 (.node 0x73FB9D0943 (.node 0x73F2B107EC (.leaf 0x2C03) (.leaf 0x1F4D9)) (.node 0x73FC46B54F (.leaf 0x4DFE) (.leaf 0x1F550))) (.node 0x74053759AE (.node 0x73FFAC3B86 (.leaf 0x2ACC) (.leaf 0x100A)) (.node 0x74053B5DAE (.leaf 0x131F) (.leaf 0x2D95))))
def nameTree_947 : NameTree := .node 0x73C728E60F (.node 0x73B504F4E4 (.node 0x73B504E0E4 (.node 0x73B502E4E4 (.leaf 0x116A) (.node 0x73B502E8E4 (.leaf 0x1170) (.leaf 0x1171))) (.node 0x73B504E8E4 (.node 0x73B504E4E4 (.leaf 0x1163) (.leaf 0x1168)) (.node 0x73B504EEE4 (.leaf 0x1174) (.leaf 0x116D)))) (.node 0x73BB5A4EB7 (.node 0x73BB5A44B7 (.node 0x73B5445038 (.leaf 0x1172) (.leaf 0x2535)) (.node 0x73BB5A48B7 (.leaf 0x1143E) (.leaf 0x11436))) (.node 0x73BD8E4FC1 (.node 0x73BB5A54B7 (.leaf 0x11440) (.leaf 0x11438)) (.node 0x73BDDD7A27 (.leaf 0xFD5A) (.leaf 0xED7))))) (nameTree_946)
def nameTree_948 : NameTree := .node 0x7469D1EA4A (.node 0x7454846B9E (.node 0x745484619E (.node 0x7454845D9E (.leaf 0x1FAB) (.leaf 0xD05)) (.node 0x745484659E (.leaf 0xD0E) (.leaf 0xD07))) (.node 0x746460F286 (.node 0x745484719E (.leaf 0xD12) (.leaf 0xD09)) (.node 0x74649861BA (.leaf 0x2CDC) (.leaf 0xA769)))) (.node 0x74726349B6 (.node 0x7470CBFF3E (.node 0x746FFC13B4 (.leaf 0x10100) (.leaf 0x109D3)) (.node 0x74725D43B6 (.leaf 0x27B8) (.leaf 0xD61))) (.node 0x7473677CDC (.node 0x7472D31BA9 (.leaf 0xD60) (.leaf 0x109DB)) (.node 0x747622F7A2 (.leaf 0x1DFD) (.leaf 0xFFA3))))
def nameTree_949 : NameTree := .node 0x744CED9318 (.node 0x7434080843 (.node 0x74166AE79A (.node 0x740EFE4BFF (.leaf 0x1D323) (.node 0x7412FCEF15 (.leaf 0x385) (.leaf 0x265A))) (.node 0x74304047CC (.node 0x7424E61F67 (.leaf 0x1CF2) (.leaf 0x2A64)) (.node 0x74329B2324 (.leaf 0x1D8CB) (.leaf 0xFC4F)))) (.node 0x7440C04E9E (.node 0x743CC53B9E (.node 0x74392FF2EC (.leaf 0x11AED) (.leaf 0x2B0F)) (.node 0x743F903755 (.leaf 0xF21) (.leaf 0x22F9))) (.node 0x7441CE459E (.node 0x7440D16A2D (.leaf 0xF26) (.leaf 0xFFA0)) (.node 0x74494CE155 (.leaf 0xF22) (.leaf 0x290C))))) (nameTree_948)
def nameTree_950 : NameTree := .node 0x74A98960EA (.node 0x7496148061 (.node 0x74919DE6D9 (.node 0x748B63947F (.leaf 0x1D963) (.node 0x748E95D2A7 (.leaf 0x1D070) (.leaf 0x1D90F))) (.node 0x74949FECD9 (.node 0x749493ECD9 (.leaf 0x1248E) (.leaf 0x12490)) (.node 0x749591D2A6 (.leaf 0x12491) (.leaf 0x27DE)))) (.node 0x749D8FF1D9 (.node 0x749B9FF0D9 (.node 0x74964CFBA6 (.leaf 0x2BA4) (.leaf 0x670)) (.node 0x749C8BEBD9 (.leaf 0x1249B) (.leaf 0x1249F))) (.node 0x74A392E3D9 (.node 0x74A2FF0ED9 (.leaf 0x124A3) (.leaf 0x12376)) (.node 0x74A49AAF0D (.leaf 0x124A7) (.leaf 0xA741))))) (.node 0x74D08CA730 (.node 0x74B961A7F0 (.node 0x74A9B83176 (.leaf 0x12196) (.node 0x74ADDABBD2 (.leaf 0x2913) (.leaf 0x1D084))) (.node 0x74CA242698 (.node 0x74BC19F775 (.leaf 0x1E16) (.leaf 0x1D06F)) (.node 0x74CED8E53C (.leaf 0x22F7) (.leaf 0x1D11F)))) (.node 0x74D7F5B28C (.node 0x74D2FEA98C (.node 0x74D28AF771 (.leaf 0x29D7) (.leaf 0xA97C)) (.node 0x74D6F9BC8C (.leaf 0x2160) (.leaf 0x2165))) (.node 0x74DA220F49 (.node 0x74D807B38C (.leaf 0x2169) (.leaf 0x2161)) (.node 0x74DE5E7444 (.leaf 0x23CA) (.leaf 0x2617)))))
def nameTree_951 : NameTree := .node 0x753909CD8C (.node 0x7522396D5D (.node 0x75183E3548 (.node 0x7517D02117 (.leaf 0x2630) (.leaf 0x1D1BA)) (.node 0x7521AC08A0 (.leaf 0x632) (.leaf 0x1D9CF))) (.node 0x752B0F12A9 (.node 0x7528B6973C (.leaf 0x1EDC) (.leaf 0xFF60)) (.node 0x7530ADCC5C (.leaf 0xFD50) (.leaf 0x1F93B)))) (.node 0x75484D1E75 (.node 0x753EC1315A (.node 0x753CD654F7 (.leaf 0xFDA2) (.leaf 0x1F750)) (.node 0x754819043E (.leaf 0x3031) (.leaf 0x12413))) (.node 0x754EC3F861 (.node 0x754A6063ED (.leaf 0x29F8) (.leaf 0xE002F)) (.node 0x754FBEF361 (.leaf 0x100DE) (.leaf 0x100DF))))
def nameTree_952 : NameTree := .node 0x7513A11D70 (.node 0x74F5EA10BB (.node 0x74ED1E97B8 (.node 0x74ED1E93B8 (.leaf 0x109E0) (.node 0x74ED1E94B8 (.leaf 0x14EB) (.leaf 0x14BC))) (.node 0x74ED1EA0B8 (.node 0x74ED1E99B8 (.leaf 0x144A) (.leaf 0x1551)) (.node 0x74F555441D (.leaf 0x1540) (.leaf 0x2599)))) (.node 0x75053B6114 (.node 0x74FCA2C1EA (.node 0x74F965AAFD (.leaf 0x118DF) (.leaf 0xE27)) (.node 0x7505375D14 (.leaf 0x10B3A) (.leaf 0x125B))) (.node 0x7507B35C53 (.node 0x75059F0CC2 (.leaf 0x125C) (.leaf 0x109E4)) (.node 0x7511BFC2EC (.leaf 0x109DC) (.leaf 0x1BA3))))) (nameTree_951)
def nameTree_953 : NameTree := .node 0x754FC0FB61 (.node 0x754FC0F461 (.node 0x754FBFFB61 (.node 0x754FBFFA61 (.leaf 0x100EF) (.leaf 0x100F0)) (.node 0x754FBFFC61 (.leaf 0x100F1) (.leaf 0x100F2))) (.node 0x754FC0F961 (.node 0x754FC0F561 (.leaf 0x100F3) (.leaf 0x100F4)) (.node 0x754FC0FA61 (.leaf 0x100F5) (.leaf 0x100F6)))) (.node 0x7550BEF861 (.node 0x754FC3F361 (.node 0x754FC0FC61 (.leaf 0x100F7) (.leaf 0x100F8)) (.node 0x75505505C8 (.leaf 0x100F9) (.leaf 0x2D58))) (.node 0x75635FCE71 (.node 0x7561A2EAC1 (.leaf 0x100FA) (.leaf 0x2519)) (.node 0x7565070BC8 (.leaf 0x10120) (.leaf 0x21C4))))
def nameTree_954 : NameTree := .node 0x754FBFF961 (.node 0x754FBEFB61 (.node 0x754FBEF761 (.node 0x754FBEF561 (.leaf 0x100E0) (.node 0x754FBEF661 (.leaf 0x100E1) (.leaf 0x100E2))) (.node 0x754FBEF961 (.node 0x754FBEF861 (.leaf 0x100E3) (.leaf 0x100E4)) (.node 0x754FBEFA61 (.leaf 0x100E5) (.leaf 0x100E6)))) (.node 0x754FBFF561 (.node 0x754FBFF361 (.node 0x754FBEFC61 (.leaf 0x100E7) (.leaf 0x100E8)) (.node 0x754FBFF461 (.leaf 0x100E9) (.leaf 0x100EA))) (.node 0x754FBFF761 (.node 0x754FBFF661 (.leaf 0x100EB) (.leaf 0x100EC)) (.node 0x754FBFF861 (.leaf 0x100ED) (.leaf 0x100EE))))) (nameTree_953)
def nameTree_955 : NameTree := .node 0x75A8FDB41F (.node 0x75A45AFE27 (.node 0x75A20DA71F (.node 0x75A0FCA71F (.leaf 0x104E0) (.leaf 0x104F9)) (.node 0x75A454F827 (.leaf 0x104E2) (.leaf 0x11363))) (.node 0x75A50DA71F (.node 0x75A4FCA71F (.leaf 0x11344) (.leaf 0x104F8)) (.node 0x75A7CA4D61 (.leaf 0x104E6) (.leaf 0x29AE)))) (.node 0x75BB0777E5 (.node 0x75AE07A71F (.node 0x75ACFCA71F (.leaf 0x104EB) (.leaf 0x104EF)) (.node 0x75B3FCA71F (.leaf 0x104F2) (.leaf 0x104FB))) (.node 0x75C4FE8916 (.node 0x75C2A1E693 (.leaf 0x11D) (.leaf 0x2665)) (.node 0x75C650419D (.leaf 0x1F0CD) (.leaf 0xA629))))
def nameTree_956 : NameTree := .node 0x759EFDB41F (.node 0x75854020EB (.node 0x7578CBD5E0 (.node 0x756FB4CF82 (.leaf 0x12139) (.node 0x7578B860E0 (.leaf 0x1213D) (.leaf 0x12003))) (.node 0x7580E2D37F (.node 0x757C76A0F0 (.leaf 0x29EB) (.leaf 0x1F673)) (.node 0x75851AD5EC (.leaf 0x1F3F6) (.leaf 0x1F432)))) (.node 0x759AFDB41F (.node 0x75917DEE4B (.node 0x758849644E (.leaf 0x2EB3) (.leaf 0x109F6)) (.node 0x7594D0DA13 (.leaf 0xFD73) (.leaf 0x1F4F2))) (.node 0x759CFCA71F (.node 0x759C06A71F (.leaf 0x104DA) (.leaf 0x104DC)) (.node 0x759DFCA71F (.leaf 0x104DD) (.leaf 0x104F5))))) (nameTree_955)
def nameTree_957 : NameTree := .node 0x75EA97EC2E (.node 0x75E359C783 (.node 0x75D57BE3E5 (.node 0x75CD45683A (.leaf 0x1D812) (.node 0x75CE7FBFB3 (.leaf 0x3DB) (.leaf 0x274A))) (.node 0x75DDD4C78D (.node 0x75D594E8C1 (.leaf 0xD7CD) (.leaf 0x1F424)) (.node 0x75DEC794A4 (.leaf 0x25BF) (.leaf 0x112)))) (.node 0x75EA1D16C3 (.node 0x75EA1516C3 (.node 0x75EA131DC3 (.leaf 0x2657) (.leaf 0x1897)) (.node 0x75EA1616C3 (.leaf 0x188B) (.leaf 0x1891))) (.node 0x75EA2616C3 (.node 0x75EA2216C3 (.leaf 0x1889) (.leaf 0x1892)) (.node 0x75EA2C16C3 (.leaf 0x1890) (.leaf 0x1896))))) (.node 0x7609EAD991 (.node 0x75EFA0F62E (.node 0x75EB5FAFD6 (.leaf 0x102E1) (.node 0x75EE92FF2E (.leaf 0xFE51) (.leaf 0x102E6))) (.node 0x75F70089F0 (.node 0x75F2D7DC14 (.leaf 0x102E2) (.leaf 0x2A83)) (.node 0x75FB2D580A (.leaf 0x2C2B) (.leaf 0x1D881)))) (.node 0x761EE54034 (.node 0x761E519452 (.node 0x761D86BEB1 (.leaf 0x2A56) (.leaf 0x3218)) (.node 0x761EB2300A (.leaf 0x1BC2F) (.leaf 0x1DA2A))) (.node 0x76222D5383 (.node 0x761EF9EC97 (.leaf 0x11DE) (.leaf 0x11D6)) (.node 0x762291D8F3 (.leaf 0x1D138) (.leaf 0xA54A)))))
def nameTree_958 : NameTree := .node 0x762297CFF3 (.node 0x762296D3F3 (.node 0x762296CBF3 (.node 0x762295D8F3 (.leaf 0xA500) (.leaf 0xA5E2)) (.node 0x762296CFF3 (.leaf 0xA558) (.leaf 0xA5F1))) (.node 0x762296DFF3 (.node 0x762296D9F3 (.leaf 0xA531) (.leaf 0xA5C9)) (.node 0x762297CBF3 (.leaf 0xA5A2) (.leaf 0xA56D)))) (.node 0x762298CBF3 (.node 0x762297D9F3 (.node 0x762297D3F3 (.leaf 0xA606) (.leaf 0xA545)) (.node 0x762297DFF3 (.leaf 0xA5DD) (.leaf 0xA5B6))) (.node 0x762298D3F3 (.node 0x762298CFF3 (.leaf 0xA54C) (.leaf 0xA5E4)) (.node 0x762298D9F3 (.leaf 0xA526) (.leaf 0xA5BD))))
def nameTree_959 : NameTree := .node 0x762295CFF3 (.node 0x762293D3F3 (.node 0x762292D9F3 (.node 0x762292CFF3 (.leaf 0xA552) (.node 0x762292D3F3 (.leaf 0xA5EA) (.leaf 0xA52C))) (.node 0x762293CBF3 (.node 0x762292DFF3 (.leaf 0xA5C3) (.leaf 0xA59D)) (.node 0x762293CFF3 (.leaf 0xA566) (.leaf 0xA5FF)))) (.node 0x762294CFF3 (.node 0x762293DFF3 (.node 0x762293D9F3 (.leaf 0xA53F) (.leaf 0xA5D7)) (.node 0x762294CBF3 (.leaf 0xA5B0) (.leaf 0xA560))) (.node 0x762294D9F3 (.node 0x762294D3F3 (.leaf 0xA5F9) (.leaf 0xA539)) (.node 0x762294DFF3 (.leaf 0xA5D1) (.leaf 0xA5AA))))) (nameTree_958)
def nameTree_960 : NameTree := .node 0x76229ECFF3 (.node 0x76229DD3F3 (.node 0x76229DCBF3 (.node 0x76229CDFF3 (.leaf 0xA5CF) (.leaf 0xA5A8)) (.node 0x76229DCFF3 (.leaf 0xA56E) (.leaf 0xA608))) (.node 0x76229DDFF3 (.node 0x76229DD9F3 (.leaf 0xA546) (.leaf 0xA5DE)) (.node 0x76229ECBF3 (.leaf 0xA5B7) (.leaf 0xA56F)))) (.node 0x76229EDFF3 (.node 0x76229ED3F3 (.node 0x76229ED1F3 (.leaf 0xA609) (.leaf 0xA60B)) (.node 0x76229ED9F3 (.leaf 0xA547) (.leaf 0xA5DF))) (.node 0x76229FD9F3 (.node 0x76229FD8F3 (.leaf 0xA5B8) (.leaf 0xA5BB)) (.node 0x7622A0CBF3 (.leaf 0xA571) (.leaf 0xA550))))
def nameTree_961 : NameTree := .node 0x76229CD9F3 (.node 0x76229BCBF3 (.node 0x76229ACFF3 (.node 0x762299D8F3 (.leaf 0xA597) (.node 0x76229ACBF3 (.leaf 0xA525) (.leaf 0xA567))) (.node 0x76229AD9F3 (.node 0x76229AD3F3 (.leaf 0xA600) (.leaf 0xA540)) (.node 0x76229ADFF3 (.leaf 0xA5D8) (.leaf 0xA5B1)))) (.node 0x76229BDFF3 (.node 0x76229BD3F3 (.node 0x76229BCFF3 (.leaf 0xA56A) (.leaf 0xA603)) (.node 0x76229BD9F3 (.leaf 0xA543) (.leaf 0xA5DB))) (.node 0x76229CCFF3 (.node 0x76229CCBF3 (.leaf 0xA5B4) (.leaf 0xA55E)) (.node 0x76229CD3F3 (.leaf 0xA5F7) (.leaf 0xA537))))) (nameTree_960)
def nameTree_962 : NameTree := .node 0x7622A6D9F3 (.node 0x7622A5D8F3 (.node 0x7622A4D9F3 (.node 0x7622A4D3F3 (.leaf 0xA5F3) (.leaf 0xA533)) (.node 0x7622A4DFF3 (.leaf 0xA5CB) (.leaf 0xA5A4))) (.node 0x7622A6CFF3 (.node 0x7622A6CBF3 (.leaf 0xA596) (.leaf 0xA559)) (.node 0x7622A6D3F3 (.leaf 0xA5F2) (.leaf 0xA532)))) (.node 0x7622A7D3F3 (.node 0x7622A7CBF3 (.node 0x7622A6DFF3 (.leaf 0xA5CA) (.leaf 0xA5A3)) (.node 0x7622A7CFF3 (.leaf 0xA54E) (.leaf 0xA5E6))) (.node 0x7622A7DFF3 (.node 0x7622A7D9F3 (.leaf 0xA528) (.leaf 0xA5BF)) (.node 0x7622A9CBF3 (.leaf 0xA599) (.leaf 0xA569))))
def nameTree_963 : NameTree := .node 0x7622A4CFF3 (.node 0x7622A2D9F3 (.node 0x7622A0DFF3 (.node 0x7622A0D3F3 (.leaf 0xA5E8) (.node 0x7622A0D9F3 (.leaf 0xA52A) (.leaf 0xA5C1))) (.node 0x7622A2CFF3 (.node 0x7622A2CBF3 (.leaf 0xA59B) (.leaf 0xA55F)) (.node 0x7622A2D3F3 (.leaf 0xA5F8) (.leaf 0xA538)))) (.node 0x7622A3D3F3 (.node 0x7622A3CBF3 (.node 0x7622A2DFF3 (.leaf 0xA5D0) (.leaf 0xA5A9)) (.node 0x7622A3CFF3 (.leaf 0xA562) (.leaf 0xA5FB))) (.node 0x7622A3DFF3 (.node 0x7622A3D9F3 (.leaf 0xA53B) (.leaf 0xA5D3)) (.node 0x7622A4CBF3 (.leaf 0xA5AC) (.leaf 0xA55A))))) (nameTree_962)
def nameTree_964 : NameTree := .node 0x762EAA3B2B (.node 0x7622AAD9F3 (.node 0x7622A9DFF3 (.node 0x7622A9D3F3 (.leaf 0xA602) (.node 0x7622A9D9F3 (.leaf 0xA542) (.leaf 0xA5DA))) (.node 0x7622AACFF3 (.node 0x7622AACBF3 (.leaf 0xA5B3) (.leaf 0xA564)) (.node 0x7622AAD3F3 (.leaf 0xA5FD) (.leaf 0xA53D)))) (.node 0x7629E73D30 (.node 0x762558203A (.node 0x7622AADFF3 (.leaf 0xA5D5) (.leaf 0xA5AE)) (.node 0x7625BAA300 (.leaf 0x262C) (.leaf 0x74A))) (.node 0x762CEB8CA9 (.node 0x762AC2DA33 (.leaf 0x1206B) (.leaf 0x1D04D)) (.node 0x762EA4352B (.leaf 0x111F3) (.leaf 0x1055))))) (.node 0x76670253A5 (.node 0x763E8C8700 (.node 0x762FB32EEB (.leaf 0x1053) (.node 0x7634901706 (.leaf 0x124DE) (.leaf 0x26D7))) (.node 0x766156A5E8 (.node 0x7659575253 (.leaf 0x1ABE) (.leaf 0x1208C)) (.node 0x76659D745F (.leaf 0x1D05C) (.leaf 0x2DFF)))) (.node 0x768C835B66 (.node 0x7686914F5B (.node 0x766B3C2931 (.leaf 0xFE8C) (.leaf 0x293E)) (.node 0x768759F69D (.leaf 0x2759) (.leaf 0x26C8))) (.node 0x768F45AF3A (.node 0x768C83B266 (.leaf 0x1F16A) (.leaf 0x1F16B)) (.node 0x7691816A21 (.leaf 0xFFE8) (.leaf 0x16B69)))))
def nameTree_965 : NameTree := .node 0x76A7C0FF87 (.node 0x76A7C0FB87 (.node 0x76A7C0F987 (.node 0x76A7C0F887 (.leaf 0x24A1) (.leaf 0x24A2)) (.node 0x76A7C0FA87 (.leaf 0x24A3) (.leaf 0x24A4))) (.node 0x76A7C0FD87 (.node 0x76A7C0FC87 (.leaf 0x24A5) (.leaf 0x24A6)) (.node 0x76A7C0FE87 (.leaf 0x24A7) (.leaf 0x24A8)))) (.node 0x76A7C10387 (.node 0x76A7C10187 (.node 0x76A7C10087 (.leaf 0x24A9) (.leaf 0x24AA)) (.node 0x76A7C10287 (.leaf 0x24AB) (.leaf 0x24AC))) (.node 0x76A7C10587 (.node 0x76A7C10487 (.leaf 0x24AD) (.leaf 0x24AE)) (.node 0x76A7C10687 (.leaf 0x24AF) (.leaf 0x24B0))))
def nameTree_966 : NameTree := .node 0x76A7C0F787 (.node 0x76A0807BB8 (.node 0x7696C88EEA (.node 0x7693E28DB3 (.leaf 0xFD3A) (.node 0x76948D6D21 (.leaf 0x1B6A) (.leaf 0x16B6B))) (.node 0x769BE87053 (.node 0x769BC48DEF (.leaf 0x1931) (.leaf 0x3009)) (.node 0x76A0807A05 (.leaf 0x1086A) (.leaf 0x1219F)))) (.node 0x76A7C0F387 (.node 0x76A35BD66F (.node 0x76A2F887D6 (.leaf 0x1227E) (.leaf 0xFCFD)) (.node 0x76A7C0F287 (.leaf 0x16B73) (.leaf 0x249C))) (.node 0x76A7C0F587 (.node 0x76A7C0F487 (.leaf 0x249D) (.leaf 0x249E)) (.node 0x76A7C0F687 (.leaf 0x249F) (.leaf 0x24A0))))) (nameTree_965)
def nameTree_967 : NameTree := .node 0x76E2B6EFB4 (.node 0x76DFCC8492 (.node 0x76CD7EAD71 (.node 0x76CC9E45B0 (.leaf 0x194A) (.leaf 0xA8E3)) (.node 0x76D0AAB356 (.leaf 0x259F) (.leaf 0xFF5E))) (.node 0x76E2B6EDB4 (.node 0x76E0A38BF0 (.leaf 0x1253E) (.leaf 0x1F8A4)) (.node 0x76E2B6EEB4 (.leaf 0x1F110) (.leaf 0x1F111)))) (.node 0x76E2B6F3B4 (.node 0x76E2B6F1B4 (.node 0x76E2B6F0B4 (.leaf 0x1F112) (.leaf 0x1F113)) (.node 0x76E2B6F2B4 (.leaf 0x1F114) (.leaf 0x1F115))) (.node 0x76E2B6F5B4 (.node 0x76E2B6F4B4 (.leaf 0x1F116) (.leaf 0x1F117)) (.node 0x76E2B6F6B4 (.leaf 0x1F118) (.leaf 0x1F119))))
def nameTree_968 : NameTree := .node 0x76BEA58876 (.node 0x76B19F3F5E (.node 0x76A7C10A87 (.node 0x76A7C10887 (.leaf 0x24B1) (.node 0x76A7C10987 (.leaf 0x24B2) (.leaf 0x24B3))) (.node 0x76ABCA9395 (.node 0x76A7C10B87 (.leaf 0x24B4) (.leaf 0x24B5)) (.node 0x76ACC06DEF (.leaf 0x1226B) (.leaf 0x1D88F)))) (.node 0x76B872349B (.node 0x76B47890A0 (.node 0x76B2085EF1 (.leaf 0xAB3B) (.leaf 0x1D791)) (.node 0x76B5EE1884 (.leaf 0xFC52) (.leaf 0x1A74))) (.node 0x76B9DD717E (.node 0x76B8A67B76 (.leaf 0x1C36) (.leaf 0x194B)) (.node 0x76BC2671EA (.leaf 0xED3) (.leaf 0x5AC))))) (nameTree_967)
def nameTree_969 : NameTree := .node 0x770DFBC15E (.node 0x770DF3B95E (.node 0x770285823E (.node 0x77021CA3FD (.leaf 0x1F129) (.leaf 0xE0D)) (.node 0x770D361CF5 (.leaf 0x1011D) (.leaf 0x11174))) (.node 0x770DF3CD5E (.node 0x770DF3C15E (.leaf 0x93E) (.leaf 0x948)) (.node 0x770DF3CF5E (.leaf 0x94C) (.leaf 0x94F)))) (.node 0x771152DBA4 (.node 0x770E07BD5E (.node 0x770E01BD5E (.leaf 0x940) (.leaf 0x93A)) (.node 0x770E07CD5E (.leaf 0x956) (.leaf 0x942))) (.node 0x77120D63A3 (.node 0x77115F63A3 (.leaf 0x2CB2) (.leaf 0x16846)) (.node 0x7713846273 (.leaf 0x168CB) (.leaf 0x1DA12))))
def nameTree_970 : NameTree := .node 0x76E2B706B4 (.node 0x76E2B6FEB4 (.node 0x76E2B6FAB4 (.node 0x76E2B6F8B4 (.leaf 0x1F11A) (.node 0x76E2B6F9B4 (.leaf 0x1F11B) (.leaf 0x1F11C))) (.node 0x76E2B6FCB4 (.node 0x76E2B6FBB4 (.leaf 0x1F11D) (.leaf 0x1F11E)) (.node 0x76E2B6FDB4 (.leaf 0x1F11F) (.leaf 0x1F120)))) (.node 0x76E2B702B4 (.node 0x76E2B700B4 (.node 0x76E2B6FFB4 (.leaf 0x1F121) (.leaf 0x1F122)) (.node 0x76E2B701B4 (.leaf 0x1F123) (.leaf 0x1F124))) (.node 0x76E2B704B4 (.node 0x76E2B703B4 (.leaf 0x1F125) (.leaf 0x1F126)) (.node 0x76E2B705B4 (.leaf 0x1F127) (.leaf 0x1F128))))) (nameTree_969)
def nameTree_971 : NameTree := .node 0x77472C7B74 (.node 0x772E567D2B (.node 0x771F501972 (.node 0x771C4D6B4C (.leaf 0x16A37) (.node 0x771EB868A8 (.leaf 0x16817) (.leaf 0x16872))) (.node 0x77277B593D (.node 0x7721A420BD (.leaf 0x1F8A0) (.leaf 0x22E1)) (.node 0x77283BF6D4 (.leaf 0x1D99A) (.leaf 0x1DA11)))) (.node 0x773B13BEAB (.node 0x7734558A2B (.node 0x773140BF19 (.leaf 0x1C45) (.leaf 0x4DD)) (.node 0x773B0AC05E (.leaf 0x1C44) (.leaf 0x1D6CC))) (.node 0x773E16C007 (.node 0x773BD79E9B (.leaf 0x1D6C4) (.leaf 0xFE9A)) (.node 0x773FEB240B (.leaf 0x1D6CB) (.leaf 0xAB5C))))) (.node 0x7756C9C190 (.node 0x7749D494BE (.node 0x77495CE866 (.leaf 0x1F55F) (.node 0x7749D394BE (.leaf 0xDED) (.leaf 0x39C))) (.node 0x7749DE88BE (.node 0x7749D688BE (.leaf 0x39D) (.leaf 0x3A0)) (.node 0x774D91C5E3 (.leaf 0x39E) (.leaf 0x1D99C)))) (.node 0x776E9165BA (.node 0x775A3F7379 (.node 0x7759A1D8D6 (.leaf 0x17DA) (.leaf 0x362)) (.node 0x775B9D001A (.leaf 0x309F) (.leaf 0x1F381))) (.node 0x777B2DEB22 (.node 0x77728939C6 (.leaf 0x21D) (.leaf 0x1D957)) (.node 0x7787F2C5D0 (.leaf 0x225E) (.leaf 0x132)))))
def nameTree_972 : NameTree := .node 0x77DA7EABCA (.node 0x77C728383C (.node 0x77C5CB8E53 (.node 0x77C1A14F97 (.leaf 0xFDB0) (.leaf 0xA8E8)) (.node 0x77C5CB9053 (.leaf 0x2184) (.leaf 0x258))) (.node 0x77CD68B71D (.node 0x77CCF6A361 (.leaf 0x2531) (.leaf 0x1D0BB)) (.node 0x77D04B009F (.leaf 0x169DD) (.leaf 0x1BBA)))) (.node 0x77E704E870 (.node 0x77E083B0ED (.node 0x77E05A0F16 (.leaf 0x1F43C) (.leaf 0x1BC85)) (.node 0x77E5C53C21 (.leaf 0x22BE) (.leaf 0x12536))) (.node 0x77EF0C95B6 (.node 0x77ED5DD814 (.leaf 0xA8D9) (.leaf 0x1F9D3)) (.node 0x77F2019EBA (.leaf 0x10121) (.leaf 0x110F9))))
def nameTree_973 : NameTree := .node 0x77B5259102 (.node 0x77A994B98D (.node 0x77A1CA7A92 (.node 0x77900AAA2D (.leaf 0x152) (.node 0x779937D400 (.leaf 0xFD6F) (.leaf 0x262F))) (.node 0x77A846EDD1 (.node 0x77A432C1DC (.leaf 0x1D951) (.leaf 0xFCC4)) (.node 0x77A934F384 (.leaf 0x2743) (.leaf 0x1F302)))) (.node 0x77ABE557AC (.node 0x77ABDE57AC (.node 0x77ABD857AC (.leaf 0x27C4) (.leaf 0x11A3D)) (.node 0x77ABE257AC (.leaf 0x11A3C) (.leaf 0x11A3E))) (.node 0x77B362F61C (.node 0x77AEE07B65 (.leaf 0x11A3B) (.leaf 0xED8)) (.node 0x77B4737722 (.leaf 0x1F59F) (.leaf 0x2B02))))) (nameTree_972)
def nameTree_974 : NameTree := .node 0x781D896A19 (.node 0x781982EBFC (.node 0x78178E6A19 (.node 0x7817836A19 (.leaf 0x11493) (.leaf 0x1149D)) (.node 0x78197D6A19 (.leaf 0x11498) (.leaf 0x114A4))) (.node 0x781C886A19 (.node 0x781C7D6A19 (.leaf 0xFC0D) (.leaf 0x114AC)) (.node 0x781D7D6A19 (.leaf 0x114AD) (.leaf 0x1149F)))) (.node 0x7839A0DCF9 (.node 0x7828A0EF57 (.node 0x7821B26BA3 (.leaf 0x11499) (.leaf 0x16884)) (.node 0x78356B01DE (.leaf 0x303F) (.leaf 0x1008E))) (.node 0x783D62E813 (.node 0x783BD6186A (.leaf 0x1F624) (.leaf 0x2557)) (.node 0x783DC815B6 (.leaf 0x640) (.leaf 0xABC))))
def nameTree_975 : NameTree := .node 0x78177C6A19 (.node 0x780E136199 (.node 0x780B7D6A19 (.node 0x77F96610E1 (.leaf 0x1D1C3) (.node 0x78043631F1 (.leaf 0x16E2) (.leaf 0x10410))) (.node 0x780D796A19 (.node 0x780C7D6A19 (.leaf 0x114A6) (.leaf 0x11495)) (.node 0x780D7D6A19 (.leaf 0x1149B) (.leaf 0x114A1)))) (.node 0x7812BD67A3 (.node 0x78120F67A3 (.node 0x78107D6A19 (.leaf 0x16898) (.leaf 0x11492)) (.node 0x78120F72A3 (.leaf 0x1689B) (.leaf 0x168E1))) (.node 0x78137D6A19 (.node 0x7812BD7099 (.leaf 0x16968) (.leaf 0x169B5)) (.node 0x78147D6A19 (.leaf 0x11497) (.leaf 0x11490))))) (nameTree_974)
def nameTree_976 : NameTree := .node 0x788AE1B453 (.node 0x787E532DF1 (.node 0x78788EE0F1 (.node 0x7876B36F90 (.leaf 0x2A31) (.leaf 0x708)) (.node 0x787C2BE67F (.leaf 0x1F75B) (.leaf 0x1F588))) (.node 0x7887B4E8DF (.node 0x7883B4EA92 (.leaf 0x1F73B) (.leaf 0x400)) (.node 0x788808B2B2 (.leaf 0x4D6) (.leaf 0x1E1C)))) (.node 0x7894F56182 (.node 0x788DFD300F (.node 0x788AE3B453 (.leaf 0x10A70) (.leaf 0x10A60)) (.node 0x7891053D66 (.leaf 0xAADC) (.leaf 0x1041))) (.node 0x78960E4766 (.node 0x7895005066 (.leaf 0x16820) (.leaf 0x1046)) (.node 0x789754755D (.leaf 0x1042) (.leaf 0x10AEC))))
def nameTree_977 : NameTree := .node 0x786F015A16 (.node 0x7850AEBDE5 (.node 0x7849F11E0B (.node 0x783FE92617 (.leaf 0xAFA) (.node 0x7846488FE6 (.leaf 0x2611) (.leaf 0xFBEB))) (.node 0x7850AEADE5 (.node 0x7850AEA9E5 (.leaf 0x1DA5) (.leaf 0x822)) (.node 0x7850AEB1E5 (.leaf 0x81C) (.leaf 0x829)))) (.node 0x786384BD0C (.node 0x785DAD17E4 (.node 0x785D038726 (.leaf 0x826) (.leaf 0x1D31B)) (.node 0x7862A33524 (.leaf 0x11657) (.leaf 0xEA3))) (.node 0x7868A44224 (.node 0x78646F0EC7 (.leaf 0x12006) (.leaf 0x176)) (.node 0x786978A63E (.leaf 0xEA5) (.leaf 0x2B03))))) (nameTree_976)
def nameTree_978 : NameTree := .node 0x78F5CF898A (.node 0x78E9626C02 (.node 0x78DE1698C9 (.node 0x78DAE9849F (.leaf 0x109BE) (.leaf 0x2449)) (.node 0x78E00DC731 (.leaf 0x1D136) (.leaf 0x1F505))) (.node 0x78EFD07C8A (.node 0x78ED5D3AAD (.leaf 0x21A9) (.leaf 0x2C0F)) (.node 0x78EFE85A0C (.leaf 0x335D) (.leaf 0x1F349)))) (.node 0x7900464D75 (.node 0x78F6F9C1EF (.node 0x78F6C8A8CC (.leaf 0x335C) (.leaf 0x23C4)) (.node 0x78F7F3E802 (.leaf 0x1D0B2) (.leaf 0x16D0))) (.node 0x7908C5B94C (.node 0x7902D07D41 (.leaf 0x10B88) (.leaf 0x114C6)) (.node 0x790B05F615 (.leaf 0x101D3) (.leaf 0x265F))))
def nameTree_979 : NameTree := .node 0x78D9FD84A9 (.node 0x78D1E54302 (.node 0x78C40FB331 (.node 0x78A3725125 (.leaf 0x121AE) (.node 0x78B9335107 (.leaf 0xFC7B) (.leaf 0x2C6))) (.node 0x78CDD0875D (.node 0x78CD22EB54 (.leaf 0x16992) (.leaf 0x2E8E)) (.node 0x78D0FD7EA9 (.leaf 0x2AD2) (.leaf 0x109BF)))) (.node 0x78D6EE4D02 (.node 0x78D5984FB5 (.node 0x78D22BF554 (.leaf 0x2ED1) (.leaf 0x2E8F)) (.node 0x78D5BBF79B (.leaf 0x1C80) (.leaf 0x776))) (.node 0x78D86056CE (.node 0x78D73A270D (.leaf 0x2ED2) (.leaf 0x1D11D)) (.node 0x78D998BD4B (.leaf 0x1013C) (.leaf 0x1EF1))))) (nameTree_978)
def nameTree_980 : NameTree := .node 0x79813733B2 (.node 0x797396814D (.node 0x796E2A6B4B (.node 0x7969E65C60 (.leaf 0xFBB6) (.leaf 0x11660)) (.node 0x7972D574F9 (.leaf 0xFC5C) (.leaf 0x1F6E4))) (.node 0x7977955DCF (.node 0x7974B51728 (.leaf 0x1F76A) (.leaf 0xD5F)) (.node 0x79782AD7BD (.leaf 0x1D143) (.leaf 0x29B)))) (.node 0x798E8A7CBD (.node 0x798C23E671 (.node 0x798A20011B (.leaf 0x11A41) (.leaf 0x1D9B6)) (.node 0x798E7A80BD (.leaf 0x1D152) (.leaf 0x122B8))) (.node 0x79927F83BD (.node 0x7991BAB81E (.leaf 0x122B9) (.leaf 0x11C8F)) (.node 0x79928B92BD (.leaf 0x122BE) (.leaf 0x122C0))))
def nameTree_981 : NameTree := .node 0x7965AC963D (.node 0x7931B6872A (.node 0x791218C0A8 (.node 0x790E27D551 (.leaf 0x26C2) (.node 0x7910B2F5A0 (.leaf 0x1D8C1) (.leaf 0x1F740))) (.node 0x7922C9AA40 (.node 0x791C59F1F5 (.leaf 0x101DE) (.leaf 0x2916)) (.node 0x7927B64756 (.leaf 0x264) (.leaf 0x1D9A)))) (.node 0x793C5BB932 (.node 0x7935A5010F (.node 0x79351F2655 (.leaf 0x109FD) (.leaf 0x204A)) (.node 0x7938F99934 (.leaf 0x1F317) (.leaf 0x12460))) (.node 0x7944ED4308 (.node 0x793EFBA334 (.leaf 0xA708) (.leaf 0x12463)) (.node 0x79533AC9E0 (.leaf 0x2D9) (.leaf 0xFD5C))))) (nameTree_980)
def nameTree_982 : NameTree := .node 0x79E98C04FE (.node 0x79E98BF0FE (.node 0x79E4AD759F (.node 0x79E4139FE5 (.leaf 0x1F9D5) (.leaf 0x16B74)) (.node 0x79E7FC4700 (.leaf 0x227F) (.leaf 0x2FF5))) (.node 0x79E98BF8FE (.node 0x79E98BF4FE (.leaf 0xC85) (.leaf 0xC8E)) (.node 0x79E98BFEFE (.leaf 0xC87) (.leaf 0xC92)))) (.node 0x7A04520DDB (.node 0x79F1013076 (.node 0x79E9EB5B7E (.leaf 0xC89) (.leaf 0x1F32)) (.node 0x79F7271886 (.leaf 0x1F679) (.leaf 0x1F3E7))) (.node 0x7A0A0DF130 (.node 0x7A059B3B86 (.leaf 0x200) (.leaf 0x100C)) (.node 0x7A120F6EFA (.leaf 0x27A0) (.leaf 0x168BD))))
def nameTree_983 : NameTree := .node 0x79D9D5EC88 (.node 0x79A1C2BDEE (.node 0x79968C8BBD (.node 0x799470830B (.leaf 0x1D84) (.node 0x79966844F3 (.leaf 0x2C8E) (.leaf 0x665))) (.node 0x79A0AEF0F8 (.node 0x799C6751F3 (.leaf 0x122D6) (.leaf 0x664)) (.node 0x79A0AEF4F8 (.leaf 0xA657) (.leaf 0x465)))) (.node 0x79BF4A2255 (.node 0x79A3E2F7AE (.node 0x79A26E870B (.leaf 0xF19) (.leaf 0x3E8)) (.node 0x79AB17A93B (.leaf 0x1BC83) (.leaf 0x1D0D5))) (.node 0x79D118CB7B (.node 0x79CE468C90 (.leaf 0xFC25) (.leaf 0x376)) (.node 0x79D7BC2F7F (.leaf 0x321) (.leaf 0x2059))))) (nameTree_982)
def nameTree_984 : NameTree := .node 0x7A73CD4232 (.node 0x7A5CF2A31A (.node 0x7A581A5412 (.node 0x7A55AF0C0D (.leaf 0x16B42) (.leaf 0x1F845)) (.node 0x7A5CF2A01A (.leaf 0x115BF) (.leaf 0x31B7))) (.node 0x7A5CF2AC1A (.node 0x7A5CF2A81A (.leaf 0x31B6) (.leaf 0x31B4)) (.node 0x7A6CEF7BB7 (.leaf 0x31B5) (.leaf 0x116AC)))) (.node 0x7A83F714F0 (.node 0x7A8102E328 (.node 0x7A7A72223A (.leaf 0x11320) (.leaf 0x1F7D3)) (.node 0x7A83F70EF0 (.leaf 0x2B0D) (.leaf 0x98C))) (.node 0x7A867D78C8 (.node 0x7A867B78C8 (.leaf 0x98B) (.leaf 0x10301)) (.node 0x7A867E79C8 (.leaf 0x10303) (.leaf 0x1031A))))
def nameTree_985 : NameTree := .node 0x7A551D94E5 (.node 0x7A434E34C1 (.node 0x7A16A96BFA (.node 0x7A13D24FA9 (.leaf 0x16909) (.node 0x7A15FE5BFA (.leaf 0xFE11) (.leaf 0x168AB))) (.node 0x7A3877E9CF (.node 0x7A34DED1DA (.leaf 0x169B0) (.leaf 0x26B8)) (.node 0x7A3FAEB8C1 (.leaf 0xA8) (.leaf 0x1F553)))) (.node 0x7A4AA35C9D (.node 0x7A455CDFBD (.node 0x7A43C230C3 (.leaf 0x8A6) (.leaf 0x2DC)) (.node 0x7A464CBA0E (.leaf 0xDE9) (.leaf 0x2416))) (.node 0x7A4EDE4414 (.node 0x7A4D5BBF74 (.leaf 0x224E) (.leaf 0x1F382)) (.node 0x7A52AB43A4 (.leaf 0xFE2D) (.leaf 0x1F264))))) (nameTree_984)
def nameTree_986 : NameTree := .node 0x75CCFA80BF (.node 0x72FF5191D6 (.node 0x71FFE616BB (.node 0x713FF11E0B (.node 0x70F6A0AD04 (nameTree_929) (nameTree_931)) (.node 0x7179AA5A8A (nameTree_933) (nameTree_935))) (.node 0x729F627F0B (.node 0x725D83E99E (nameTree_936) (nameTree_938)) (.node 0x72B214B27B (nameTree_940) (nameTree_942)))) (.node 0x747ECDE567 (.node 0x73B502E0E4 (.node 0x737E842913 (nameTree_943) (nameTree_945)) (.node 0x740B3F3F02 (nameTree_947) (nameTree_949))) (.node 0x754FBEF461 (.node 0x74E885786C (nameTree_950) (nameTree_952)) (.node 0x756FA0D982 (nameTree_954) (nameTree_956))))) (.node 0x771B015DAD (.node 0x7622A9CFF3 (.node 0x762298DFF3 (.node 0x762292CBF3 (nameTree_957) (nameTree_959)) (.node 0x7622A0CFF3 (nameTree_961) (nameTree_963))) (.node 0x76A7C10787 (.node 0x76934C34F4 (nameTree_964) (nameTree_966)) (.node 0x76E2B6F7B4 (nameTree_968) (nameTree_970)))) (.node 0x78A2236BAB (.node 0x77F4302FF4 (.node 0x7787F8C0D0 (nameTree_971) (nameTree_973)) (.node 0x783DC92469 (nameTree_975) (nameTree_977))) (.node 0x7993A7B7A3 (.node 0x790DB106B7 (nameTree_979) (nameTree_981)) (.node 0x7A126672FA (nameTree_983) (nameTree_985)))))
def nameTree_987 : NameTree := .node 0x7A869378C8 (.node 0x7A868474C8 (.node 0x7A867E85C8 (.node 0x7A867E80C8 (.leaf 0x1030B) (.node 0x7A867E81C8 (.leaf 0x1030C) (.leaf 0x1030D))) (.node 0x7A868178C8 (.node 0x7A867E86C8 (.leaf 0x10313) (.leaf 0x10314)) (.node 0x7A86827CC8 (.leaf 0x10307) (.leaf 0x1031D)))) (.node 0x7A868D78C8 (.node 0x7A868488C8 (.node 0x7A868478C8 (.leaf 0x1030A) (.leaf 0x10302)) (.node 0x7A868978C8 (.leaf 0x10312) (.leaf 0x10310))) (.node 0x7A868F78C8 (.node 0x7A868E88C8 (.leaf 0x10315) (.leaf 0x1031E)) (.node 0x7A869278C8 (.leaf 0x10305) (.leaf 0x1032D))))) (.node 0x7A9F8190B8 (.node 0x7A98CC1DAC (.node 0x7A918193A9 (.leaf 0x10306) (.node 0x7A95ABF9D9 (.leaf 0x12107) (.leaf 0x10B3E))) (.node 0x7A9C00DF3C (.node 0x7A99797DBD (.leaf 0xFB9D) (.leaf 0x122E1)) (.node 0x7A9E04D03C (.leaf 0x676) (.leaf 0x678)))) (.node 0x7AAD686D1B (.node 0x7AA07992A9 (.node 0x7AA079900A (.leaf 0x1228A) (.leaf 0x12260)) (.node 0x7AA0799405 (.leaf 0x12110) (.leaf 0x121A6))) (.node 0x7AB20CB27B (.node 0x7AAF21B5F7 (.leaf 0x1F0AE) (.leaf 0x1EE02)) (.node 0x7AB227BFB1 (.leaf 0x1D7F5) (.leaf 0x1760)))))
def nameTree_988 : NameTree := .node 0x7AE098EABB (.node 0x7AE096DDBB (.node 0x7AE094EABB (.node 0x7AE094E5BB (.leaf 0x140B) (.leaf 0x141C)) (.node 0x7AE094F5BB (.leaf 0x142E) (.leaf 0x18B1))) (.node 0x7AE096E5BB (.node 0x7AE096E1BB (.leaf 0x1490) (.leaf 0x1489)) (.node 0x7AE096EBBB (.leaf 0x148B) (.leaf 0x148D)))) (.node 0x7AE099EBBB (.node 0x7AE099E1BB (.node 0x7AE099DDBB (.leaf 0x142B) (.leaf 0x1559)) (.node 0x7AE099E5BB (.leaf 0x1553) (.leaf 0x1555))) (.node 0x7AE09CE5BB (.node 0x7AE09BE7BB (.leaf 0x1557) (.leaf 0x157D)) (.node 0x7AE09CEABB (.leaf 0x1404) (.leaf 0x142C))))
def nameTree_989 : NameTree := .node 0x7AE094DDBB (.node 0x7ABBF0CF5C (.node 0x7AB3403153 (.node 0x7AB227D3B1 (.leaf 0x1761) (.node 0x7AB289135F (.leaf 0x1762) (.leaf 0x1F603))) (.node 0x7ABBF0BB5C (.node 0x7ABB73AC5E (.leaf 0x1EE8) (.leaf 0x1F0BE)) (.node 0x7ABBF0C35C (.leaf 0x1740) (.leaf 0x1741)))) (.node 0x7AD09D4B27 (.node 0x7AC873A2DF (.node 0x7AC72374B3 (.leaf 0x1742) (.leaf 0x1D001)) (.node 0x7ACB2DA4CC (.leaf 0x7A2) (.leaf 0x1D050))) (.node 0x7ADCAD4F10 (.node 0x7ADC5610FD (.leaf 0x2342) (.leaf 0x96F)) (.node 0x7ADE202EA1 (.leaf 0x1D93A) (.leaf 0xFE2F))))) (nameTree_988)
def nameTree_990 : NameTree := .node 0x7AE0A2F5BB (.node 0x7AE0A1E5BB (.node 0x7AE0A1E3BB (.node 0x7AE0A1E1BB (.leaf 0x14C7) (.leaf 0x14C0)) (.node 0x7AE0A1E4BB (.leaf 0x1595) (.leaf 0x14D2))) (.node 0x7AE0A2EABB (.node 0x7AE0A1EBBB (.leaf 0x14C2) (.leaf 0x14C4)) (.node 0x7AE0A2EBBB (.leaf 0x142D) (.leaf 0x1406)))) (.node 0x7AE0A3EBBB (.node 0x7AE0A3E1BB (.node 0x7AE0A3DDBB (.leaf 0x18B0) (.leaf 0x1438)) (.node 0x7AE0A3E5BB (.leaf 0x142F) (.leaf 0x1431))) (.node 0x7AE0A4E5BB (.node 0x7AE0A4DDBB (.leaf 0x1433) (.leaf 0x1583)) (.node 0x7AE0A4EBBB (.leaf 0x157F) (.leaf 0x1581))))
def nameTree_991 : NameTree := .node 0x7AE0A1DDBB (.node 0x7AE09FE4BB (.node 0x7AE09EEBBB (.node 0x7AE09EE1BB (.leaf 0x1472) (.node 0x7AE09EE5BB (.leaf 0x146B) (.leaf 0x146D))) (.node 0x7AE09FDDBB (.node 0x7AE09EF3BB (.leaf 0x146F) (.leaf 0x1484)) (.node 0x7AE09FE1BB (.leaf 0x14DA) (.leaf 0x14D3)))) (.node 0x7AE0A0E1BB (.node 0x7AE09FEBBB (.node 0x7AE09FE5BB (.leaf 0x15A6) (.leaf 0x14D5)) (.node 0x7AE0A0DDBB (.leaf 0x14D7) (.leaf 0x14AA))) (.node 0x7AE0A0E5BB (.node 0x7AE0A0E4BB (.leaf 0x14A3) (.leaf 0x14BD)) (.node 0x7AE0A0EBBB (.leaf 0x14A5) (.leaf 0x14A7))))) (nameTree_990)
def nameTree_992 : NameTree := .node 0x7AE5CE1DD3 (.node 0x7AE0ACDDBB (.node 0x7AE0AAE5BB (.node 0x7AE0AAE1BB (.leaf 0x1417) (.leaf 0x140C)) (.node 0x7AE0AAEBBB (.leaf 0x140E) (.leaf 0x1412))) (.node 0x7AE0ACE5BB (.node 0x7AE0ACE1BB (.leaf 0x152D) (.leaf 0x1526)) (.node 0x7AE0ACEBBB (.leaf 0x1528) (.leaf 0x152A)))) (.node 0x7AF64333FE (.node 0x7AEC6D52EC (.node 0x7AE8292D6E (.leaf 0x1D88C) (.leaf 0xABE1)) (.node 0x7AF3DFE48D (.leaf 0xA75B) (.leaf 0x10749))) (.node 0x7B0CC1CD21 (.node 0x7AFB5D0416 (.leaf 0x2CC) (.leaf 0x1D0B6)) (.node 0x7B12565F4C (.leaf 0x1BC79) (.leaf 0x1694F))))
def nameTree_993 : NameTree := .node 0x7AE0AADDBB (.node 0x7AE0A6E5BB (.node 0x7AE0A5EBBB (.node 0x7AE0A5E1BB (.leaf 0x154B) (.node 0x7AE0A5E5BB (.leaf 0x1542) (.leaf 0x1546))) (.node 0x7AE0A6E1BB (.node 0x7AE0A6DDBB (.leaf 0x1548) (.leaf 0x14F4)) (.node 0x7AE0A6E4BB (.leaf 0x14ED) (.leaf 0x1525)))) (.node 0x7AE0A7E1BB (.node 0x7AE0A6F3BB (.node 0x7AE0A6EBBB (.leaf 0x14EF) (.leaf 0x14F1)) (.node 0x7AE0A7DDBB (.leaf 0x1507) (.leaf 0x1455))) (.node 0x7AE0A7E5BB (.node 0x7AE0A7E4BB (.leaf 0x144C) (.leaf 0x156A)) (.node 0x7AE0A7EBBB (.leaf 0x144E) (.leaf 0x1450))))) (nameTree_992)
def nameTree_994 : NameTree := .node 0x7B3A5052BF (.node 0x7B20F1755C (.node 0x7B18FDF315 (.node 0x7B12566204 (.leaf 0x16950) (.node 0x7B13045FA3 (.leaf 0x16928) (.leaf 0x16A0D))) (.node 0x7B1D595EB2 (.node 0x7B1AF24E57 (.leaf 0x265C) (.leaf 0x1F60F)) (.node 0x7B1E3DC651 (.leaf 0xFCFF) (.leaf 0x1D0A9)))) (.node 0x7B22DCAC6B (.node 0x7B22A962B2 (.node 0x7B22A95EF5 (.leaf 0x2121) (.leaf 0x1699A)) (.node 0x7B22A963B7 (.leaf 0x1699D) (.leaf 0x16997))) (.node 0x7B38D42353 (.node 0x7B2C19DE6B (.leaf 0x1705) (.leaf 0x2564)) (.node 0x7B3A1ABDA6 (.leaf 0x2593) (.leaf 0x1D6C5))))) (.node 0x7B4704044D (.node 0x7B3C341C33 (.node 0x7B3A5FE9A4 (.leaf 0x1A1E) (.node 0x7B3B5AC02B (.leaf 0xDEE) (.leaf 0x4DDA))) (.node 0x7B3F9A07D9 (.node 0x7B3EDC0633 (.leaf 0xFF3D) (.leaf 0xAB)) (.node 0x7B42D3DB78 (.leaf 0x1F765) (.leaf 0x1F346)))) (.node 0x7B5D8EB0A4 (.node 0x7B551568CD (.node 0x7B4E6628AB (.leaf 0x29AA) (.leaf 0xFD5F)) (.node 0x7B59AD0F3B (.leaf 0x1F433) (.leaf 0x11653))) (.node 0x7B70B7BD72 (.node 0x7B62176CAA (.leaf 0x321E) (.leaf 0x35F)) (.node 0x7B71E23EA0 (.leaf 0x360) (.leaf 0x1D986)))))
def nameTree_995 : NameTree := .node 0x7BC2FC17C2 (.node 0x7BC2FA16C2 (.node 0x7BC2F917C2 (.node 0x7BC2F916C2 (.leaf 0x282F) (.leaf 0x284F)) (.node 0x7BC2FA15C2 (.leaf 0x288F) (.leaf 0x2837))) (.node 0x7BC2FB16C2 (.node 0x7BC2FA17C2 (.leaf 0x2857) (.leaf 0x2897)) (.node 0x7BC2FB17C2 (.leaf 0x2867) (.leaf 0x28A7)))) (.node 0x7BC3FB16C2 (.node 0x7BC3FA16C2 (.node 0x7BC3FA15C2 (.leaf 0x28C7) (.leaf 0x283B)) (.node 0x7BC3FA17C2 (.leaf 0x285B) (.leaf 0x289B))) (.node 0x7BC3FC17C2 (.node 0x7BC3FB17C2 (.leaf 0x286B) (.leaf 0x28AB)) (.node 0x7BC412FE02 (.leaf 0x28CB) (.leaf 0x1D993))))
def nameTree_996 : NameTree := .node 0x7BC2F915C2 (.node 0x7B9D10F7F5 (.node 0x7B86A2D97A (.node 0x7B81840B2D (.leaf 0xFC63) (.node 0x7B82BA04A3 (.leaf 0x2737) (.leaf 0x19E3))) (.node 0x7B8CD9BCAD (.node 0x7B8BF0FE77 (.leaf 0x23B5) (.leaf 0x2A72)) (.node 0x7B96F44139 (.leaf 0x2AF8) (.leaf 0x1F52F)))) (.node 0x7BC0952C45 (.node 0x7BADF49DC9 (.node 0x7BA79082D6 (.leaf 0x1D00D) (.leaf 0xFCB)) (.node 0x7BB21DB0F7 (.leaf 0xFF3E) (.leaf 0x1EE17))) (.node 0x7BC1E8E928 (.node 0x7BC0995EBE (.leaf 0x2250) (.leaf 0x1F92C)) (.node 0x7BC2F914C2 (.leaf 0xFB30) (.leaf 0x281F))))) (nameTree_995)
def nameTree_997 : NameTree := .node 0x7BF6177F65 (.node 0x7BE64CA618 (.node 0x7BE2918DBB (.node 0x7BE2918ABB (.leaf 0x11ADC) (.leaf 0x11ADE)) (.node 0x7BE2918FBB (.leaf 0x11AE2) (.leaf 0x11AE4))) (.node 0x7BF1357CA0 (.node 0x7BEB3BC8B0 (.leaf 0xFD08) (.leaf 0x2275)) (.node 0x7BF3DFE58D (.leaf 0x2190) (.leaf 0x1074A)))) (.node 0x7C05C3F4C1 (.node 0x7BFC139886 (.node 0x7BF6594172 (.leaf 0x1E826) (.leaf 0x1033)) (.node 0x7BFF5829F6 (.leaf 0x11F1) (.leaf 0x208D))) (.node 0x7C0B62DACB (.node 0x7C0885829A (.leaf 0x1D1C6) (.leaf 0x2AB6)) (.node 0x7C0B66EECB (.leaf 0x121CD) (.leaf 0x121CE))))
def nameTree_998 : NameTree := .node 0x7BE29186BB (.node 0x7BD52834B6 (.node 0x7BC5E0E12D (.node 0x7BC4FB17C2 (.leaf 0x2873) (.node 0x7BC4FC17C2 (.leaf 0x28B3) (.leaf 0x28D3))) (.node 0x7BD0186481 (.node 0x7BC5FC17C2 (.leaf 0xFB2E) (.leaf 0x28E3)) (.node 0x7BD396E913 (.leaf 0x1F99) (.leaf 0x1F47C)))) (.node 0x7BE29181BB (.node 0x7BD6C7A7B4 (.node 0x7BD64F7915 (.leaf 0x2797) (.leaf 0x16B57)) (.node 0x7BDA02DDBF (.leaf 0x5B7) (.leaf 0x1D8A4))) (.node 0x7BE29183BB (.node 0x7BE29182BB (.leaf 0x11ADD) (.leaf 0x11AE1)) (.node 0x7BE29184BB (.leaf 0x11ADF) (.leaf 0x11AE0))))) (nameTree_997)
def nameTree_999 : NameTree := .node 0x7C7A7D6C72 (.node 0x7C66AA67F9 (.node 0x7C62A5A894 (.node 0x7C4EB01922 (.leaf 0x1F479) (.leaf 0x11658)) (.node 0x7C64D6CDA9 (.leaf 0xFBB7) (.leaf 0x30D))) (.node 0x7C6973EC80 (.node 0x7C682BE558 (.leaf 0x26F3) (.leaf 0x2628)) (.node 0x7C6D423F16 (.leaf 0x275F) (.leaf 0x2FF8)))) (.node 0x7C84670723 (.node 0x7C7C5CF78C (.node 0x7C7B833615 (.leaf 0xAB54) (.leaf 0x2961)) (.node 0x7C84670623 (.leaf 0x2ADF) (.leaf 0x1F150))) (.node 0x7C84670923 (.node 0x7C84670823 (.leaf 0x1F151) (.leaf 0x1F152)) (.node 0x7C84670A23 (.leaf 0x1F153) (.leaf 0x1F154))))
def nameTree_1000 : NameTree := .node 0x7C4BB4A0B6 (.node 0x7C2717FA46 (.node 0x7C16565FA3 (.node 0x7C12666EA3 (.leaf 0x251E) (.node 0x7C12BD6BA3 (.leaf 0x16908) (.leaf 0x169AF))) (.node 0x7C1D9EAD29 (.node 0x7C1A1A3067 (.leaf 0x16932) (.leaf 0x1D1C2)) (.node 0x7C2211C99B (.leaf 0x1F012) (.leaf 0x1D9B5)))) (.node 0x7C38B1C588 (.node 0x7C321E1CDE (.node 0x7C2F6065A3 (.leaf 0x1FB0) (.leaf 0x19EA)) (.node 0x7C33A72435 (.leaf 0x2B38) (.leaf 0x2244))) (.node 0x7C4318106D (.node 0x7C3A2DF026 (.leaf 0xAABF) (.leaf 0x10090)) (.node 0x7C451D66F7 (.leaf 0x1DA44) (.leaf 0x55A))))) (nameTree_999)
def nameTree_1001 : NameTree := .node 0x7C84671A23 (.node 0x7C84671223 (.node 0x7C84670E23 (.node 0x7C84670C23 (.leaf 0x1F155) (.node 0x7C84670D23 (.leaf 0x1F156) (.leaf 0x1F157))) (.node 0x7C84671023 (.node 0x7C84670F23 (.leaf 0x1F158) (.leaf 0x1F159)) (.node 0x7C84671123 (.leaf 0x1F15A) (.leaf 0x1F15B)))) (.node 0x7C84671623 (.node 0x7C84671423 (.node 0x7C84671323 (.leaf 0x1F15C) (.leaf 0x1F15D)) (.node 0x7C84671523 (.leaf 0x1F15E) (.leaf 0x1F15F))) (.node 0x7C84671823 (.node 0x7C84671723 (.leaf 0x1F160) (.leaf 0x1F161)) (.node 0x7C84671923 (.leaf 0x1F162) (.leaf 0x1F163))))) (.node 0x7C8A22965E (.node 0x7C84671D23 (.node 0x7C84671B23 (.leaf 0x1F164) (.node 0x7C84671C23 (.leaf 0x1F165) (.leaf 0x1F166))) (.node 0x7C84671F23 (.node 0x7C84671E23 (.leaf 0x1F167) (.leaf 0x1F168)) (.node 0x7C853BCA2D (.leaf 0x1F169) (.leaf 0x10084)))) (.node 0x7C94198730 (.node 0x7C8F2BA05E (.node 0x7C8B80FA6D (.leaf 0x2ECD) (.leaf 0x2EC3)) (.node 0x7C908A046D (.leaf 0x2ECE) (.leaf 0x2EC4))) (.node 0x7C9502921E (.node 0x7C946C7F0B (.leaf 0x1E19) (.leaf 0x2C94)) (.node 0x7C983BBDB5 (.leaf 0x1D06D) (.leaf 0x1D858)))))
def nameTree_1002 : NameTree := .node 0x7CC3FC1819 (.node 0x7CC3FB1719 (.node 0x7CC3FA1819 (.node 0x7CC3FA17C2 (.leaf 0x285E) (.leaf 0x289D)) (.node 0x7CC3FB16C2 (.leaf 0x289E) (.leaf 0x286D))) (.node 0x7CC3FB1819 (.node 0x7CC3FB17C2 (.leaf 0x286E) (.leaf 0x28AD)) (.node 0x7CC3FC17C2 (.leaf 0x28AE) (.leaf 0x28CD)))) (.node 0x7CC4FB1819 (.node 0x7CC4FB1719 (.node 0x7CC4FB16C2 (.leaf 0x28CE) (.leaf 0x2875)) (.node 0x7CC4FB17C2 (.leaf 0x2876) (.leaf 0x28B5))) (.node 0x7CC4FC1819 (.node 0x7CC4FC17C2 (.leaf 0x28B6) (.leaf 0x28D5)) (.node 0x7CC5DEFF3D (.leaf 0x28D6) (.leaf 0x25B8))))
def nameTree_1003 : NameTree := .node 0x7CC3FA1719 (.node 0x7CBF40CC26 (.node 0x7CA2D17F88 (.node 0x7C9D044416 (.leaf 0x3E6) (.node 0x7C9D044A16 (.leaf 0x11408) (.leaf 0x11406))) (.node 0x7CB133F618 (.node 0x7CA9E87053 (.leaf 0x1D0F2) (.leaf 0x10873)) (.node 0x7CBE9CCBDF (.leaf 0x1200C) (.leaf 0xFB4F)))) (.node 0x7CC252B8C4 (.node 0x7CC24C8AFD (.node 0x7CC24C89FD (.leaf 0x1F663) (.leaf 0x1D16A)) (.node 0x7CC24C8BFD (.leaf 0x1D16B) (.leaf 0x1D16C))) (.node 0x7CC3FA1619 (.node 0x7CC3FA15C2 (.leaf 0x2A62) (.leaf 0x283D)) (.node 0x7CC3FA16C2 (.leaf 0x283E) (.leaf 0x285D))))) (nameTree_1002)
def nameTree_1004 : NameTree := .node 0x7D0FAD68A3 (.node 0x7D0B0C3459 (.node 0x7D02252605 (.node 0x7CFD209F4E (.leaf 0x12050) (.leaf 0x1106A)) (.node 0x7D090C2659 (.leaf 0x1FD3) (.leaf 0x121C0))) (.node 0x7D0E202659 (.node 0x7D0E0C3459 (.leaf 0x121C2) (.leaf 0x121C5)) (.node 0x7D0F0C2E59 (.leaf 0x121C6) (.leaf 0x121C9)))) (.node 0x7D13202E59 (.node 0x7D12201559 (.node 0x7D12143059 (.leaf 0x169A5) (.leaf 0x121D0)) (.node 0x7D12202E59 (.leaf 0x121D1) (.leaf 0x121D2))) (.node 0x7D13DD91B0 (.node 0x7D135168FA (.leaf 0x121D7) (.leaf 0x16845)) (.node 0x7D13FF68FA (.leaf 0x1FCC) (.leaf 0x16893))))
def nameTree_1005 : NameTree := .node 0x7CFC9363AD (.node 0x7CE586D3A4 (.node 0x7CD0B5B68F (.node 0x7CC5FC1819 (.leaf 0x28E5) (.node 0x7CC6CCDE1D (.leaf 0x28E6) (.leaf 0x1A1B))) (.node 0x7CD7F41ACF (.node 0x7CD1B3A98F (.leaf 0xFF1A) (.leaf 0xFF0C)) (.node 0x7CE4F55957 (.leaf 0x1D124) (.leaf 0x2FF6)))) (.node 0x7CF721924E (.node 0x7CEA2A1ED9 (.node 0x7CE9627102 (.leaf 0x2A38) (.leaf 0x21AB)) (.node 0x7CF3DFE68D (.leaf 0x27A9) (.leaf 0x1074B))) (.node 0x7CFA177B0E (.node 0x7CF917830E (.leaf 0x1106B) (.leaf 0x1E822)) (.node 0x7CFB178F0E (.leaf 0x1E823) (.leaf 0x1E824))))) (nameTree_1004)
def nameTree_1006 : NameTree := .node 0x7D2C670CE0 (.node 0x7D2C5B0CE0 (.node 0x7D22A95FFA (.node 0x7D1C1E2A59 (.leaf 0x121ED) (.leaf 0x121EA)) (.node 0x7D2C570CE0 (.leaf 0x169E0) (.leaf 0x1E926))) (.node 0x7D2C5D0CE0 (.node 0x7D2C5C0CE0 (.leaf 0x1E92C) (.leaf 0x1E93A)) (.node 0x7D2C6510E0 (.leaf 0x1E938) (.leaf 0x1E928)))) (.node 0x7D2EC989D7 (.node 0x7D2C6B0CE0 (.node 0x7D2C6920E0 (.leaf 0x1E92A) (.leaf 0x1E93C)) (.node 0x7D2C6E0CE0 (.leaf 0x1E93E) (.leaf 0x1E934))) (.node 0x7D44F9450D (.node 0x7D36230495 (.leaf 0x140) (.leaf 0xAE6)) (.node 0x7D45B76012 (.leaf 0x27AD) (.leaf 0x1D8E8))))
def nameTree_1007 : NameTree := .node 0x7D1BEC3759 (.node 0x7D1898FC4C (.node 0x7D17FB6BFA (.node 0x7D14526AFA (.leaf 0x168BB) (.node 0x7D14BD6AFA (.leaf 0x16943) (.leaf 0x169D0))) (.node 0x7D186668FA (.node 0x7D18526AFA (.leaf 0x16895) (.leaf 0x168FE)) (.node 0x7D1895F74C (.leaf 0x168FC) (.leaf 0x810)))) (.node 0x7D18BD6AFA (.node 0x7D1899074C (.node 0x7D1899024C (.leaf 0x80F) (.leaf 0x807)) (.node 0x7D18BD67FA (.leaf 0x804) (.leaf 0x169CB))) (.node 0x7D1AEE66DC (.node 0x7D1A202F59 (.leaf 0x169B6) (.leaf 0x121E1)) (.node 0x7D1B0C2959 (.leaf 0x1F01B) (.leaf 0x121E2))))) (nameTree_1006)
def nameTree_1008 : NameTree := .node 0x7D966D8E2B (.node 0x7D6BF57A41 (.node 0x7D5BE399DE (.node 0x7D4D0C3C35 (.leaf 0x100A7) (.node 0x7D554E036C (.leaf 0x11447) (.leaf 0x1D0E3))) (.node 0x7D65268936 (.node 0x7D5ED39BEC (.leaf 0xFB6E) (.leaf 0x1F992)) (.node 0x7D6AEEF9AA (.leaf 0x1EF6) (.leaf 0x19E6)))) (.node 0x7D867E5B89 (.node 0x7D7C44F4BB (.node 0x7D7718C261 (.leaf 0x1E96) (.leaf 0x25C6)) (.node 0x7D8412E54E (.leaf 0x745) (.leaf 0x1D153))) (.node 0x7D8A6D6D7A (.node 0x7D89CA303E (.leaf 0xB82) (.leaf 0xFD3B)) (.node 0x7D92888C9F (.leaf 0x16B28) (.leaf 0x1202A))))) (.node 0x7DA0FD89DC (.node 0x7D9C87CA73 (.node 0x7D97631E12 (.leaf 0x1F737) (.node 0x7D97D3EA89 (.leaf 0x2A8C) (.leaf 0x1D36D))) (.node 0x7D9FEB7053 (.node 0x7D9DD2F789 (.leaf 0x2FE) (.leaf 0x1D36C)) (.node 0x7DA0F789DC (.leaf 0x10874) (.leaf 0x1232C)))) (.node 0x7DAE6243A9 (.node 0x7DA7FEA099 (.node 0x7DA7FE9A99 (.leaf 0x1232D) (.leaf 0x14BE)) (.node 0x7DA978E89C (.leaf 0x1506) (.leaf 0x109E1))) (.node 0x7DAF21B5F7 (.node 0x7DAE625514 (.leaf 0x1126) (.leaf 0x1124)) (.node 0x7DB2D6CEA6 (.leaf 0x1EE0C) (.leaf 0xA715)))))
def nameTree_1009 : NameTree := .node 0x7DC5FC1870 (.node 0x7DC4FC1870 (.node 0x7DC4FC17C2 (.node 0x7DC4FB1870 (.leaf 0x28BA) (.leaf 0x28BC)) (.node 0x7DC4FC1819 (.leaf 0x28D9) (.leaf 0x28DA))) (.node 0x7DC5FC17C2 (.node 0x7DC57818A6 (.leaf 0x28DC) (.leaf 0x1F535)) (.node 0x7DC5FC1819 (.leaf 0x28E9) (.leaf 0x28EA)))) (.node 0x7DD6380CFE (.node 0x7DCEF8395A (.node 0x7DCA63CE22 (.leaf 0x28EC) (.leaf 0xFDC2)) (.node 0x7DD62A06FE (.leaf 0x12113) (.leaf 0x334E))) (.node 0x7DD63A09EF (.node 0x7DD63905DB (.leaf 0x334F) (.leaf 0x3324)) (.node 0x7DDD2DF4EA (.leaf 0x332C) (.leaf 0x3345))))
def nameTree_1010 : NameTree := .node 0x7DC4FB1819 (.node 0x7DBAEC8F7D (.node 0x7DBAEC7D7D (.node 0x7DB7AF0D4A (.leaf 0x1210D) (.node 0x7DB7CDCF7A (.leaf 0x101FC) (.leaf 0x10184))) (.node 0x7DBAEC857D (.node 0x7DBAEC817D (.leaf 0x13A0) (.leaf 0x13A1)) (.node 0x7DBAEC8B7D (.leaf 0x13A2) (.leaf 0x13A3)))) (.node 0x7DC4FB16C2 (.node 0x7DBAEC927D (.node 0x7DBAEC917D (.leaf 0x13CD) (.leaf 0x13A4)) (.node 0x7DBC085EF1 (.leaf 0x13A5) (.leaf 0x1D798))) (.node 0x7DC4FB1770 (.node 0x7DC4FB1719 (.leaf 0x2879) (.leaf 0x287A)) (.node 0x7DC4FB17C2 (.leaf 0x287C) (.leaf 0x28B9))))) (nameTree_1009)
def nameTree_1011 : NameTree := .node 0x7E29D2AAD9 (.node 0x7E162FC74C (.node 0x7E12BD7099 (.node 0x7E12BD6699 (.leaf 0x16955) (.leaf 0x16995)) (.node 0x7E145FDEA4 (.leaf 0x16988) (.leaf 0x2CCA))) (.node 0x7E1DD85256 (.node 0x7E1843D80B (.leaf 0x101F4) (.leaf 0x2A82)) (.node 0x7E21FF6DAD (.leaf 0x1253B) (.leaf 0x168DB)))) (.node 0x7E331AC316 (.node 0x7E318A22D9 (.node 0x7E30CA0EDD (.leaf 0x1D1BF) (.leaf 0x2A16)) (.node 0x7E31F9B6EA (.leaf 0x1D85F) (.leaf 0xFB4C))) (.node 0x7E33FCCA15 (.node 0x7E33FCC215 (.leaf 0x1D6C9) (.leaf 0x11184)) (.node 0x7E33FCD615 (.leaf 0x1118E) (.leaf 0x11190))))
def nameTree_1012 : NameTree := .node 0x7E126674AD (.node 0x7DE93A0650 (.node 0x7DE17B0023 (.node 0x7DDE3808EA (.leaf 0x330B) (.node 0x7DDE3A0737 (.leaf 0x3344) (.leaf 0x332A))) (.node 0x7DE734FFE0 (.node 0x7DE332F2E0 (.leaf 0x2C36) (.leaf 0x330F)) (.node 0x7DE7539DB1 (.leaf 0x330E) (.leaf 0x200C)))) (.node 0x7E00E52307 (.node 0x7DED50133B (.node 0x7DEA58E3C8 (.leaf 0x3357) (.leaf 0x1F43E)) (.node 0x7E0080FFA3 (.leaf 0xA670) (.leaf 0x16A8))) (.node 0x7E06325980 (.node 0x7E035448DC (.leaf 0x1D94B) (.leaf 0x16864)) (.node 0x7E0F854C9E (.leaf 0x2420) (.leaf 0xFF17))))) (nameTree_1011)
def nameTree_1013 : NameTree := .node 0x7E3AD86285 (.node 0x7E3672FBD4 (.node 0x7E3414C215 (.node 0x7E3411C215 (.leaf 0x11188) (.leaf 0x111AE)) (.node 0x7E361BDA7F (.leaf 0x111AA) (.leaf 0x1FB1))) (.node 0x7E386EFBD4 (.node 0x7E3772FBD4 (.leaf 0x11C25) (.leaf 0x11C14)) (.node 0x7E3872FBD4 (.leaf 0x11C1A) (.leaf 0x11C20)))) (.node 0x7E3D299B3B (.node 0x7E3B72FBD4 (.node 0x7E3B6AC977 (.leaf 0x2CEB) (.leaf 0x3D0)) (.node 0x7E3B9B2D46 (.leaf 0x11C11) (.leaf 0x2985))) (.node 0x7E3F1592AB (.node 0x7E3E72FBD4 (.leaf 0x8EC) (.leaf 0x11C16)) (.node 0x7E3F72FBD4 (.leaf 0x10CA3) (.leaf 0x11C0F))))
def nameTree_1014 : NameTree := .node 0x7E3410D615 (.node 0x7E3406C215 (.node 0x7E3402C215 (.node 0x7E33FEC215 (.leaf 0x111A7) (.node 0x7E33FFC215 (.leaf 0x11196) (.leaf 0x111A2))) (.node 0x7E3404CA15 (.node 0x7E3403C215 (.leaf 0x11193) (.leaf 0x111B2)) (.node 0x7E3405C215 (.leaf 0x11186) (.leaf 0x11198)))) (.node 0x7E340BC215 (.node 0x7E3408C215 (.node 0x7E3407C215 (.leaf 0x11191) (.leaf 0x111AC)) (.node 0x7E3409C215 (.leaf 0x111A9) (.leaf 0x111A4))) (.node 0x7E340EC215 (.node 0x7E340DC215 (.leaf 0x111A5) (.leaf 0x111AB)) (.node 0x7E340FC215 (.leaf 0x111B1) (.leaf 0x111A0))))) (nameTree_1013)
def nameTree_1015 : NameTree := .node 0x7E6D2B7ACC (.node 0x7E487EFBD4 (.node 0x7E4472FBD4 (.node 0x7E4278FBD4 (.leaf 0x11C12) (.node 0x7E4283FBD4 (.leaf 0x11C1C) (.leaf 0x11C17))) (.node 0x7E477DFBD4 (.node 0x7E4772FBD4 (.leaf 0x11C23) (.leaf 0x11C2B)) (.node 0x7E4872FBD4 (.leaf 0x11C2C) (.leaf 0x11C1E)))) (.node 0x7E5188D25B (.node 0x7E4ED7B767 (.node 0x7E4BF723C2 (.leaf 0x11C18) (.leaf 0x23D8)) (.node 0x7E50CDB959 (.leaf 0x2AE6) (.leaf 0xFB93))) (.node 0x7E5B739888 (.node 0x7E5325DDAE (.leaf 0xFE64) (.leaf 0x27D5)) (.node 0x7E69E1B3F0 (.leaf 0x1210C) (.leaf 0x18DF))))) (.node 0x7E8C2175C9 (.node 0x7E81BE8A66 (.node 0x7E7050DD28 (.leaf 0x1F3F2) (.node 0x7E7D416835 (.leaf 0x1F67B) (.leaf 0x10560))) (.node 0x7E84377335 (.node 0x7E84296E35 (.leaf 0x1F716) (.leaf 0x10556)) (.node 0x7E8B53529E (.leaf 0x10549) (.leaf 0x3239)))) (.node 0x7E9018FBDE (.node 0x7E8F35B017 (.node 0x7E8E00CB50 (.leaf 0x1D0DA) (.leaf 0x7D)) (.node 0x7E8F81996B (.leaf 0x1F341) (.leaf 0x12322))) (.node 0x7E947F53C6 (.node 0x7E93462253 (.leaf 0x10081) (.leaf 0x1DA2E)) (.node 0x7E95297135 (.leaf 0x25D) (.leaf 0x1055F)))))
def nameTree_1016 : NameTree := .node 0x7ED73384FA (.node 0x7EC93F40BA (.node 0x7EC5FC1870 (.node 0x7EC5FC1819 (.leaf 0x28F1) (.leaf 0x28F2)) (.node 0x7EC5FC18C7 (.leaf 0x28F4) (.leaf 0x28F8))) (.node 0x7ECD273DFA (.node 0x7ECC5A0BAE (.leaf 0x316B) (.leaf 0x497)) (.node 0x7ED24F706C (.leaf 0x1E1E) (.leaf 0x16B53)))) (.node 0x7EF3DFE88D (.node 0x7EEB4C12FA (.node 0x7EE13FCBFA (.leaf 0x120) (.leaf 0x1E22)) (.node 0x7EF067D73C (.leaf 0x130) (.leaf 0x21CC))) (.node 0x7EF53EBAA1 (.node 0x7EF4655880 (.leaf 0x1074C) (.leaf 0x124C1)) (.node 0x7EF9C51682 (.leaf 0x856) (.leaf 0x1688F))))
def nameTree_1017 : NameTree := .node 0x7EC5FC17C2 (.node 0x7EAB1371E2 (.node 0x7EA1B2B609 (.node 0x7E98EDADDB (.leaf 0x1054B) (.node 0x7E9AE9DAFA (.leaf 0x2152) (.leaf 0x226))) (.node 0x7EA4F621FA (.node 0x7EA2E17653 (.leaf 0x1D072) (.leaf 0x10875)) (.node 0x7EA6D07F88 (.leaf 0x1E02) (.leaf 0x1D0F0)))) (.node 0x7EB92BB6F7 (.node 0x7EB89E7B76 (.node 0x7EAF0268FA (.leaf 0x1D838) (.leaf 0x10A)) (.node 0x7EB90EAFFA (.leaf 0x194F) (.leaf 0x1E0A))) (.node 0x7EBD9AAF64 (.node 0x7EB9C5BDB7 (.leaf 0x1EE0D) (.leaf 0x1D87E)) (.node 0x7EC31AF6FA (.leaf 0x167) (.leaf 0x116))))) (nameTree_1016)
def nameTree_1018 : NameTree := .node 0x7F37008CB4 (.node 0x7F2DBBC226 (.node 0x7F285B0329 (.node 0x7F285AFD29 (.leaf 0xB0F) (.leaf 0xB07)) (.node 0x7F285B0929 (.leaf 0xB13) (.leaf 0xB09))) (.node 0x7F31A203FA (.node 0x7F2E4E7D2B (.leaf 0xFC24) (.leaf 0x1C49)) (.node 0x7F3513C2BF (.leaf 0x1E56) (.leaf 0x1D6D4)))) (.node 0x7F49BF44D6 (.node 0x7F45BA91FA (.node 0x7F40A089E5 (.leaf 0x1B38) (.leaf 0x11BC)) (.node 0x7F480DA9E5 (.leaf 0x1E58) (.leaf 0x16B40))) (.node 0x7F4FC6D8FA (.node 0x7F4F03E16B (.leaf 0x37) (.leaf 0x23F0)) (.node 0x7F57C4DBC7 (.leaf 0x1E60) (.leaf 0x213F))))
def nameTree_1019 : NameTree := .node 0x7F285AF929 (.node 0x7F13A16A9C (.node 0x7F11A866F5 (.node 0x7F0671AB23 (.leaf 0x1F533) (.node 0x7F093E72B1 (.leaf 0x1D8A5) (.leaf 0x1DA6E))) (.node 0x7F12AD6CA8 (.node 0x7F11F43275 (.leaf 0x1685D) (.leaf 0x27F4)) (.node 0x7F137D2EFA (.leaf 0x169B1) (.leaf 0x1E40)))) (.node 0x7F221AFF74 (.node 0x7F1A14669D (.node 0x7F186D456F (.leaf 0x1200B) (.leaf 0x494)) (.node 0x7F1D8975FA (.leaf 0xFBB8) (.leaf 0x1E44))) (.node 0x7F2795BCFA (.node 0x7F248BB92D (.leaf 0x1D99F) (.leaf 0x21D4)) (.node 0x7F285AF529 (.leaf 0x22E) (.leaf 0xB05))))) (nameTree_1018)
def nameTree_1020 : NameTree := .node 0x7F9C55382B (.node 0x7F96297335 (.node 0x7F95296835 (.node 0x7F94914D01 (.leaf 0x1085B) (.leaf 0x10859)) (.node 0x7F961CC9FA (.leaf 0x10541) (.leaf 0x17B))) (.node 0x7F9B00042B (.node 0x7F99F48F2B (.leaf 0x10555) (.leaf 0x12015)) (.node 0x7F9BFE382B (.leaf 0x1207C) (.leaf 0x120B6)))) (.node 0x7F9E791C08 (.node 0x7F9E651C08 (.node 0x7F9E08382B (.leaf 0x1212B) (.leaf 0x12222)) (.node 0x7F9E731C08 (.leaf 0xA79A) (.leaf 0xA79C))) (.node 0x7F9FEC7053 (.node 0x7F9EE5D1D1 (.leaf 0xA79E) (.leaf 0xD7F0)) (.node 0x7FA014F02B (.leaf 0x10868) (.leaf 0x122DC))))
def nameTree_1021 : NameTree := .node 0x7F947F4C01 (.node 0x7F7396AA03 (.node 0x7F6D473524 (.node 0x7F61CFE000 (.leaf 0x1E6A) (.node 0x7F6C993524 (.leaf 0x329) (.leaf 0xE9F))) (.node 0x7F70F21C95 (.node 0x7F709B5DD1 (.leaf 0xEAB) (.leaf 0x295F)) (.node 0x7F71043524 (.leaf 0xA876) (.leaf 0xEAA)))) (.node 0x7F86C7FE91 (.node 0x7F82043BFA (.node 0x7F77F7F4FA (.leaf 0x1637) (.leaf 0x1E86)) (.node 0x7F831BC532 (.leaf 0x1E8A) (.leaf 0xFE42))) (.node 0x7F8E7481C1 (.node 0x7F8C1082FA (.leaf 0xFB8A) (.leaf 0x1E8E)) (.node 0x7F8F884301 (.leaf 0xC4) (.leaf 0x10858))))) (nameTree_1020)
def nameTree_1022 : NameTree := .node 0x7FC7527A53 (.node 0x7FA4BDD1D1 (.node 0x7FA0C13D2B (.node 0x7FA06A942B (.leaf 0x122EF) (.node 0x7FA080899F (.leaf 0x122FD) (.leaf 0x12032))) (.node 0x7FA1D7C4B0 (.node 0x7FA0C4A32B (.leaf 0x12319) (.leaf 0x12327)) (.node 0x7FA48720CA (.leaf 0x27C5) (.leaf 0x6F7)))) (.node 0x7FB6A59DC1 (.node 0x7FAAD68E38 (.node 0x7FA7116035 (.leaf 0xD7F1) (.leaf 0x1F41E)) (.node 0x7FAE0A6396 (.leaf 0x1E927) (.leaf 0x2362))) (.node 0x7FC5F4C233 (.node 0x7FBCBEC651 (.leaf 0xCB) (.leaf 0x1D804)) (.node 0x7FC74E77E5 (.leaf 0x1E67) (.leaf 0x125))))) (.node 0x7FD6CBA5AF (.node 0x7FCEDF6CF3 (.node 0x7FC9A3BC37 (.leaf 0x16B58) (.node 0x7FC9D5ACB9 (.leaf 0xE55) (.leaf 0x5B6))) (.node 0x7FD4CA72C1 (.node 0x7FCFA2C937 (.leaf 0x1214F) (.leaf 0xE54)) (.node 0x7FD6116559 (.leaf 0x1E26) (.leaf 0x2AEB)))) (.node 0x7FE336971A (.node 0x7FDED6B9C1 (.node 0x7FDB808833 (.leaf 0x5BD) (.leaf 0xFE82)) (.node 0x7FE060777E (.leaf 0xCF) (.leaf 0x1E38))) (.node 0x7FE9DE2542 (.node 0x7FE4412C9F (.leaf 0x18EE) (.leaf 0x1F192)) (.node 0x7FFCE98CCF (.leaf 0x1F014) (.leaf 0x1C3F)))))
def nameTree_1023 : NameTree := .node 0x802C3B2183 (.node 0x80269A4256 (.node 0x8023005FFA (.node 0x8022566BFA (.leaf 0x168AD) (.leaf 0x16947)) (.node 0x802440D405 (.leaf 0x16A1A) (.leaf 0xFD24))) (.node 0x802B2D2A83 (.node 0x8027321783 (.leaf 0x980) (.leaf 0x11731)) (.node 0x802C349997 (.leaf 0x11736) (.leaf 0x200A)))) (.node 0x80328A744D (.node 0x803061E3AB (.node 0x802D936B4D (.leaf 0x11732) (.leaf 0x108A7)) (.node 0x8030C978A5 (.leaf 0x1CDD) (.leaf 0x2702))) (.node 0x803A71F182 (.node 0x80329C754D (.leaf 0x108AD) (.leaf 0x108A8)) (.node 0x803A84D3D2 (.leaf 0x10091) (.leaf 0x4DCD))))
def nameTree_1024 : NameTree := .node 0x8021FF6BFA (.node 0x8012BD72FA (.node 0x800DFF67FA (.node 0x80035B210C (.leaf 0x1E828) (.node 0x80090BB5C4 (.leaf 0xA78F) (.leaf 0x10098))) (.node 0x80120F72FA (.node 0x800F0467FA (.leaf 0x168C4) (.leaf 0x16A10)) (.node 0x8012666EFA (.leaf 0x168E5) (.leaf 0x168F7)))) (.node 0x801B2063C1 (.node 0x8016565FFA (.node 0x80155D1123 (.leaf 0x16983) (.leaf 0x1E94)) (.node 0x8019D0EFCE (.leaf 0x168F5) (.leaf 0x469))) (.node 0x801FF1E57E (.node 0x801EFD41CF (.leaf 0xD6) (.leaf 0x1D935)) (.node 0x80214DD769 (.leaf 0x11003) (.leaf 0xA7AD))))) (nameTree_1023)
def nameTree_1025 : NameTree := .node 0x807B9D8A0F (.node 0x80758EE2C1 (.node 0x806DD2EEC8 (.node 0x806B829BC1 (.leaf 0x2B05) (.leaf 0x1E84)) (.node 0x807412E623 (.leaf 0x1D961) (.leaf 0x1F322))) (.node 0x80793E0712 (.node 0x80767E0959 (.leaf 0x1E8C) (.leaf 0x1D93)) (.node 0x8079FE5A29 (.leaf 0x746) (.leaf 0x2538)))) (.node 0x80837C0B2B (.node 0x807F9B29C1 (.node 0x807D5799EE (.leaf 0x1F760) (.leaf 0xFC8D)) (.node 0x80818D7621 (.leaf 0x178) (.leaf 0x16B44))) (.node 0x8089796521 (.node 0x8084E56B83 (.leaf 0x1F3D3) (.leaf 0x1BF0)) (.node 0x808C5D5372 (.leaf 0x16B6A) (.leaf 0x101F2))))
def nameTree_1026 : NameTree := .node 0x8067C0FB50 (.node 0x80461604A3 (.node 0x8043CD33FC (.node 0x803F3CEB80 (.leaf 0x26DF) (.node 0x80432603FD (.leaf 0xAA55) (.leaf 0xDDF))) (.node 0x8044CB26FC (.node 0x8043EC551C (.leaf 0xFE55) (.leaf 0x2238)) (.node 0x80453BF880 (.leaf 0xFE50) (.leaf 0xAA54)))) (.node 0x80576A0DC1 (.node 0x8048671404 (.node 0x80473AD7EF (.leaf 0x19E2) (.leaf 0x76B)) (.node 0x804B17A0E5 (.leaf 0x1F00E) (.leaf 0x16B37))) (.node 0x8062BB8B16 (.node 0x805C6C7411 (.leaf 0xDC) (.leaf 0x23E)) (.node 0x8063CCAA15 (.leaf 0x16F41) (.leaf 0x10398))))) (nameTree_1025)
def nameTree_1027 : NameTree := .node 0x80E27B3B60 (.node 0x80D5828E91 (.node 0x80CEEBFFF6 (.node 0x80CDF13BB9 (.leaf 0x12270) (.leaf 0xFB7A)) (.node 0x80D10F944F (.leaf 0x12271) (.leaf 0x1DA28))) (.node 0x80E2743B60 (.node 0x80E26A3B60 (.leaf 0x2B0C) (.leaf 0x103E)) (.node 0x80E2793B60 (.leaf 0x103C) (.leaf 0x103D)))) (.node 0x80E7BB1B7B (.node 0x80E599EB89 (.node 0x80E57D1B97 (.leaf 0x103B) (.leaf 0x12332)) (.node 0x80E72DDEF5 (.leaf 0xFEB4) (.leaf 0x1F01D))) (.node 0x80EFC87C8A (.node 0x80E9673A96 (.leaf 0x3184) (.leaf 0xF85)) (.node 0x80F282F278 (.leaf 0x3361) (.leaf 0x100B5))))
def nameTree_1028 : NameTree := .node 0x80CBEC02F6 (.node 0x80A3D8245C (.node 0x809AFA9E80 (.node 0x809925EBC0 (.leaf 0x1F8AB) (.node 0x8099877221 (.leaf 0x10083) (.leaf 0x16B64))) (.node 0x80A10AC1FC (.node 0x809FD95DEE (.leaf 0x120FE) (.leaf 0x12444)) (.node 0x80A3D8205C (.leaf 0x1F83F) (.leaf 0x116B2)))) (.node 0x80AD20549E (.node 0x80A3D8305C (.node 0x80A3D82A5C (.leaf 0x116AE) (.leaf 0x116B4)) (.node 0x80AA3037C8 (.leaf 0x116B0) (.leaf 0x1EEE))) (.node 0x80C290D82B (.node 0x80BD08259F (.leaf 0x10088) (.leaf 0x1012D)) (.node 0x80C42988E4 (.leaf 0x1429) (.leaf 0x2A15))))) (nameTree_1027)
def nameTree_1029 : NameTree := .node 0x8116DA5727 (.node 0x81065DD6A4 (.node 0x80F7DEAE8F (.node 0x80F6375E19 (.leaf 0x16E7) (.node 0x80F63B6219 (.leaf 0xAB03) (.leaf 0xAB04))) (.node 0x80FF88C74D (.node 0x80FEEAFBFC (.leaf 0x235B) (.leaf 0x1F4E3)) (.node 0x8101DE57BF (.leaf 0x4EE) (.leaf 0x1BC92)))) (.node 0x810BCFFC2F (.node 0x8109C2992C (.node 0x8107BA9444 (.leaf 0x2CB8) (.leaf 0x2397)) (.node 0x810B8543F5 (.leaf 0x5C1) (.leaf 0xFF13))) (.node 0x8113CE577E (.node 0x8112D767B5 (.leaf 0x11000) (.leaf 0x1BC99)) (.node 0x8113D755CB (.leaf 0x39B) (.leaf 0x393))))) (.node 0x813A22AD92 (.node 0x813027F10D (.node 0x811CC056FC (.leaf 0x39A) (.node 0x8123864B36 (.leaf 0x1253A) (.leaf 0x1F6D2))) (.node 0x8139646319 (.node 0x813942EB6F (.leaf 0x25DC) (.leaf 0xEDE)) (.node 0x813974155C (.leaf 0x1F5A2) (.leaf 0x1F4C7)))) (.node 0x8153A40F57 (.node 0x814A650C49 (.node 0x814226BF51 (.leaf 0x8EF) (.leaf 0x1D0B4)) (.node 0x814EA0B2FA (.leaf 0x11444) (.leaf 0x22C3))) (.node 0x815711DFDA (.node 0x815711DEDA (.leaf 0x1F53E) (.leaf 0x1F1E6)) (.node 0x815711E0DA (.leaf 0x1F1E7) (.leaf 0x1F1E8)))))
def nameTree_1030 : NameTree := .node 0x815972585E (.node 0x815711F4DA (.node 0x815711F2DA (.node 0x815711F1DA (.leaf 0x1F1F8) (.leaf 0x1F1F9)) (.node 0x815711F3DA (.leaf 0x1F1FA) (.leaf 0x1F1FB))) (.node 0x815711F6DA (.node 0x815711F5DA (.leaf 0x1F1FC) (.leaf 0x1F1FD)) (.node 0x815711F7DA (.leaf 0x1F1FE) (.leaf 0x1F1FF)))) (.node 0x816C9F44B4 (.node 0x815CD147F1 (.node 0x815B51B9A0 (.leaf 0x2E5) (.leaf 0x1F810)) (.node 0x815D75EBF1 (.leaf 0x1E8AB) (.leaf 0x1E8A9))) (.node 0x8172AF245D (.node 0x8171B32A5D (.leaf 0xFC13) (.leaf 0x1EE0F)) (.node 0x81733EF19D (.leaf 0x1EE01) (.leaf 0x1A31))))
def nameTree_1031 : NameTree := .node 0x815711F0DA (.node 0x815711E8DA (.node 0x815711E4DA (.node 0x815711E2DA (.leaf 0x1F1E9) (.node 0x815711E3DA (.leaf 0x1F1EA) (.leaf 0x1F1EB))) (.node 0x815711E6DA (.node 0x815711E5DA (.leaf 0x1F1EC) (.leaf 0x1F1ED)) (.node 0x815711E7DA (.leaf 0x1F1EE) (.leaf 0x1F1EF)))) (.node 0x815711ECDA (.node 0x815711EADA (.node 0x815711E9DA (.leaf 0x1F1F0) (.leaf 0x1F1F1)) (.node 0x815711EBDA (.leaf 0x1F1F2) (.leaf 0x1F1F3))) (.node 0x815711EEDA (.node 0x815711EDDA (.leaf 0x1F1F4) (.leaf 0x1F1F5)) (.node 0x815711EFDA (.leaf 0x1F1F6) (.leaf 0x1F1F7))))) (nameTree_1030)
def nameTree_1032 : NameTree := .node 0x8197E2ED51 (.node 0x8193EBA9DB (.node 0x818AAB245D (.node 0x8189AF245D (.leaf 0x1EE05) (.leaf 0x1EE09)) (.node 0x818F682F53 (.leaf 0x1EE1A) (.leaf 0x1D70D))) (.node 0x819646D44D (.node 0x8194EF366F (.leaf 0x2153) (.leaf 0x2687)) (.node 0x81966044F3 (.leaf 0x1D0D2) (.leaf 0x669)))) (.node 0x819F563224 (.node 0x819D13E568 (.node 0x8199F13020 (.leaf 0x1EA0) (.leaf 0x1F262)) (.node 0x819D945F49 (.leaf 0x6DA) (.leaf 0x1F761))) (.node 0x81A2872436 (.node 0x81A1EF3451 (.leaf 0x1E4A) (.leaf 0x1E04)) (.node 0x81A3720ACC (.leaf 0x1D83A) (.leaf 0xFC76))))
def nameTree_1033 : NameTree := .node 0x8187AB335D (.node 0x817BAB225D (.node 0x817574329B (.node 0x8174AB205D (.leaf 0x1A2D) (.node 0x8174AB285D (.leaf 0x1EE19) (.leaf 0x1EE03))) (.node 0x8178AB245D (.node 0x8176AF245D (.leaf 0x260E) (.leaf 0x1EE10)) (.node 0x817AA3C826 (.leaf 0x1EE07) (.leaf 0x230C)))) (.node 0x81836730FB (.node 0x8181AB225D (.node 0x817CAB295D (.leaf 0x1EE0A) (.leaf 0x1EE0B)) (.node 0x8182AF245D (.leaf 0x1EE12) (.leaf 0x1EE13))) (.node 0x8184AB245D (.node 0x8183AB205D (.leaf 0x1F732) (.leaf 0x1EE11)) (.node 0x8184AF245D (.leaf 0x1EE08) (.leaf 0x1EE15))))) (nameTree_1032)
def nameTree_1034 : NameTree := .node 0x81CF3E4A6B (.node 0x81C66E50F1 (.node 0x81C0140951 (.node 0x81C0032F91 (.leaf 0xD8B) (.leaf 0x1D97A)) (.node 0x81C2544B9D (.leaf 0x1EB8) (.leaf 0xA620))) (.node 0x81C7668EDF (.node 0x81C671F4F1 (.leaf 0x1E888) (.leaf 0x1E887)) (.node 0x81CAFB1792 (.leaf 0x799) (.leaf 0x10E7E)))) (.node 0x81DABE41AE (.node 0x81DA39F12D (.node 0x81DA39083C (.leaf 0x1D199) (.leaf 0x331C)) (.node 0x81DA3FFDEF (.leaf 0x333C) (.leaf 0x333B))) (.node 0x81DEAAC3D6 (.node 0x81DE38DE51 (.leaf 0x118) (.leaf 0x1E24)) (.node 0x81DFFF2C1E (.leaf 0x2591) (.leaf 0x93C))))
def nameTree_1035 : NameTree := .node 0x81BFF8A164 (.node 0x81BA9BC92A (.node 0x81B35BD853 (.node 0x81ACA2D0AF (.leaf 0x16B67) (.node 0x81AFFA51E4 (.leaf 0x2BC5) (.leaf 0x1F8A))) (.node 0x81B82367D2 (.node 0x81B607C251 (.leaf 0xD7FB) (.leaf 0x1E0C)) (.node 0x81B83B0E58 (.leaf 0xFC9E) (.leaf 0x2969)))) (.node 0x81BFF1D564 (.node 0x81BFA4D32A (.node 0x81BF92D22A (.leaf 0x10B78) (.leaf 0x10B7C)) (.node 0x81BFADA74D (.leaf 0x10B79) (.leaf 0x1EC3))) (.node 0x81BFF48D64 (.node 0x81BFF33164 (.leaf 0xD85) (.leaf 0xD91)) (.node 0x81BFF69764 (.leaf 0xD89) (.leaf 0xD94))))) (nameTree_1034)
def nameTree_1036 : NameTree := .node 0x8207683F51 (.node 0x8200884DDC (.node 0x81F89B8337 (.node 0x81F83CB177 (.leaf 0x2FAB) (.leaf 0x216F)) (.node 0x81FC5DB351 (.leaf 0x29B7) (.leaf 0x1E32))) (.node 0x820669FA51 (.node 0x8200D53D3F (.leaf 0xFF18) (.leaf 0x4DE1)) (.node 0x8207683351 (.leaf 0x1E36) (.leaf 0x1BC4F)))) (.node 0x82170D78F4 (.node 0x8210764151 (.node 0x8209B57E07 (.leaf 0x1BC55) (.leaf 0x10175)) (.node 0x8215B7DCE1 (.leaf 0x1E42) (.leaf 0xFC66))) (.node 0x8221C1A9B6 (.node 0x821A828851 (.leaf 0xFBB9) (.leaf 0x1E46)) (.node 0x82248ECF51 (.leaf 0x1D1C0) (.leaf 0x1ECC))))
def nameTree_1037 : NameTree := .node 0x81F58CD05E (.node 0x81E4862364 (.node 0x81E33A04F4 (.node 0x81E33909EF (.leaf 0x3308) (.node 0x81E339FEF4 (.leaf 0x333A) (.leaf 0x3322))) (.node 0x81E47E2364 (.node 0x81E47E1B64 (.leaf 0x3323) (.leaf 0x11C2F)) (.node 0x81E47E2F64 (.leaf 0x11C39) (.leaf 0x11C3B)))) (.node 0x81E8452551 (.node 0x81E623AFDB (.node 0x81E4922F64 (.leaf 0x11C31) (.leaf 0x11C33)) (.node 0x81E791DCCF (.leaf 0xC5) (.leaf 0xFDF4))) (.node 0x81EAB25046 (.node 0x81E85A1DCA (.leaf 0x1ECA) (.leaf 0x1F44D)) (.node 0x81EBFC96EF (.leaf 0x2B6D) (.leaf 0x2A1A))))) (nameTree_1036)
def nameTree_1038 : NameTree := .node 0x8254ED9CB0 (.node 0x8254ED88B0 (.node 0x825051A06C (.node 0x824CBFEB51 (.leaf 0x2012) (.leaf 0x1E62)) (.node 0x8253835575 (.leaf 0x1085A) (.leaf 0x29C5))) (.node 0x8254ED90B0 (.node 0x8254ED8CB0 (.leaf 0x1963) (.leaf 0x196B)) (.node 0x8254ED96B0 (.leaf 0x1964) (.leaf 0x1969)))) (.node 0x82601EEFF1 (.node 0x8259F75C84 (.node 0x8256CC3251 (.leaf 0x1967) (.leaf 0x1E6C)) (.node 0x825B34B40A (.leaf 0x1D918) (.leaf 0x1D871))) (.node 0x82635ACB1C (.node 0x8260D87951 (.leaf 0x1E86F) (.leaf 0x1EE4)) (.node 0x8266E5CAC9 (.leaf 0xA70F) (.leaf 0xFC72))))
def nameTree_1039 : NameTree := .node 0x824866E281 (.node 0x823CF266F3 (.node 0x822C8DCA89 (.node 0x822753F2F0 (.leaf 0x1F5EA) (.node 0x822BDEC9CE (.leaf 0x1DA1E) (.leaf 0x1D991))) (.node 0x823245223F (.node 0x823245163F (.leaf 0x1D18B) (.leaf 0x1039B)) (.node 0x823424A61A (.leaf 0x1039C) (.leaf 0x230D)))) (.node 0x824397F4AB (.node 0x8242B3A451 (.node 0x823E0EBCA1 (.leaf 0x112C) (.leaf 0x1D6C2)) (.node 0x8242FF3C55 (.leaf 0x1E5A) (.leaf 0x257C))) (.node 0x8245BF3C2D (.node 0x8243B750DC (.leaf 0x16A6) (.leaf 0x115BC)) (.node 0x824647441F (.leaf 0x33) (.leaf 0x1F658))))) (nameTree_1038)
def nameTree_1040 : NameTree := .node 0x82940FA8A7 (.node 0x829315DC51 (.node 0x8290EDA919 (.node 0x828C2D6A37 (.leaf 0x1D1C5) (.leaf 0x20BA)) (.node 0x829228F34C (.leaf 0x2155) (.leaf 0x2E3B))) (.node 0x8293922799 (.node 0x8293346825 (.leaf 0x1E92) (.leaf 0x76D)) (.node 0x82940F9AA7 (.leaf 0x8FC) (.leaf 0x178B)))) (.node 0x82A4F0B4B5 (.node 0x82A0871821 (.node 0x8298EDABD1 (.leaf 0x178D) (.leaf 0x2151)) (.node 0x82A2EDAD84 (.leaf 0x6F3) (.leaf 0x2159))) (.node 0x82BF89CC2B (.node 0x82BF20AEF1 (.leaf 0x1699) (.leaf 0x1E870)) (.node 0x82C54B15AC (.leaf 0x1424) (.leaf 0x108EF))))
def nameTree_1041 : NameTree := .node 0x828BCA43E0 (.node 0x8273399271 (.node 0x826AE4C051 (.node 0x82680DA6FB (.leaf 0x2B4C) (.node 0x82689D040F (.leaf 0x1F6A9) (.leaf 0x1085E))) (.node 0x827018A9FF (.node 0x826EBFF9F1 (.leaf 0x1E7E) (.leaf 0x1E876)) (.node 0x8270B60EC7 (.leaf 0x2A13) (.leaf 0x1E90)))) (.node 0x8289099551 (.node 0x828511E6E2 (.node 0x8274F10751 (.leaf 0x11143) (.leaf 0x1E88)) (.node 0x8285FC1041 (.leaf 0xFDC5) (.leaf 0x11067))) (.node 0x828B051A41 (.node 0x8289F72341 (.leaf 0x1EF4) (.leaf 0x1106C)) (.node 0x828B08A290 (.leaf 0x11068) (.leaf 0x2182))))) (nameTree_1040)
def nameTree_1042 : NameTree := .node 0x82F9284A0E (.node 0x82F9214A0E (.node 0x82EE2803D1 (.node 0x82EDC27047 (.leaf 0x1DA23) (.leaf 0x2C06)) (.node 0x82F9204A0E (.leaf 0x1F7AB) (.leaf 0x1912))) (.node 0x82F9254A0E (.node 0x82F9224A0E (.leaf 0x1906) (.leaf 0x190D)) (.node 0x82F9264A0E (.leaf 0x1903) (.leaf 0x191C)))) (.node 0x82F92C4A0E (.node 0x82F92A4A0E (.node 0x82F9294A0E (.leaf 0x1908) (.leaf 0x1901)) (.node 0x82F92B4A0E (.leaf 0x1917) (.leaf 0x1914))) (.node 0x82F9304A0E (.node 0x82F92E4A0E (.leaf 0x190F) (.leaf 0x1910)) (.node 0x82F9314A0E (.leaf 0x1916) (.leaf 0x191B))))
def nameTree_1043 : NameTree := .node 0x82ED875657 (.node 0x82D583C367 (.node 0x82D13714AC (.node 0x82C7DCA1B9 (.leaf 0x19F9) (.node 0x82CED3A3B6 (.leaf 0x5B0) (.leaf 0x6EB))) (.node 0x82D583AF67 (.node 0x82D24715AC (.leaf 0x108EC) (.leaf 0x108ED)) (.node 0x82D583B767 (.leaf 0xA05) (.leaf 0xA07)))) (.node 0x82E552D98E (.node 0x82DB331EAC (.node 0x82D8331EAC (.leaf 0xA09) (.leaf 0x108F5)) (.node 0x82DCE9B679 (.leaf 0x108E5) (.leaf 0x1F710))) (.node 0x82E7F9805B (.node 0x82E737259F (.leaf 0x1F475) (.leaf 0x1F193)) (.node 0x82EC0EC48D (.leaf 0x16B38) (.leaf 0x2952))))) (nameTree_1042)
def nameTree_1044 : NameTree := .node 0x7E4271FBD4 (.node 0x7C84670B23 (.node 0x7B12565FA3 (.node 0x7AE09EDDBB (.node 0x7AB227C7B1 (nameTree_987) (nameTree_989)) (.node 0x7AE0A5DDBB (nameTree_991) (nameTree_993))) (.node 0x7BC4FB16C2 (.node 0x7B724C941B (nameTree_994) (nameTree_996)) (.node 0x7C1115A0B4 (nameTree_998) (nameTree_1000)))) (.node 0x7D478CEF12 (.node 0x7CC5FC17C2 (.node 0x7C9B61870B (nameTree_1001) (nameTree_1003)) (.node 0x7D140F67FA (nameTree_1005) (nameTree_1007))) (.node 0x7DDE37FC3C (.node 0x7DB600595A (nameTree_1008) (nameTree_1010)) (.node 0x7E33FDC215 (nameTree_1012) (nameTree_1014))))) (.node 0x80F5F3719A (.node 0x7FA069382B (.node 0x7F0226750D (.node 0x7E95297335 (nameTree_1015) (nameTree_1017)) (.node 0x7F59D31FFA (nameTree_1019) (nameTree_1021))) (.node 0x803B737832 (.node 0x7FFD178965 (nameTree_1022) (nameTree_1024)) (.node 0x80933BF8F1 (nameTree_1026) (nameTree_1028)))) (.node 0x81E026F232 (.node 0x817344F19D (.node 0x815711E1DA (nameTree_1029) (nameTree_1031)) (.node 0x81A9BE8EE5 (nameTree_1033) (nameTree_1035))) (.node 0x82671E7A2D (.node 0x822615FDC2 (nameTree_1037) (nameTree_1039)) (.node 0x82C76AE8DB (nameTree_1041) (nameTree_1043)))))
def nameTree_1045 : NameTree := .node 0x831FB0333D (.node 0x8309BD0C11 (.node 0x82FB68F528 (.node 0x82F9354A0E (.leaf 0x190B) (.node 0x82F9374A0E (.leaf 0x1918) (.leaf 0x1915))) (.node 0x8308C23A1A (.node 0x82FDCE8FE3 (.leaf 0x1085F) (.leaf 0x2A7F)) (.node 0x8308D0692F (.leaf 0x9BD) (.leaf 0x1F538)))) (.node 0x831FB02F3D (.node 0x83152C0ED1 (.node 0x8312A8298F (.leaf 0x4DE) (.leaf 0x124AF)) (.node 0x831FB02E3D (.leaf 0x16AD7) (.leaf 0x2801))) (.node 0x831FB0313D (.node 0x831FB0303D (.leaf 0x2802) (.leaf 0x2804)) (.node 0x831FB0323D (.leaf 0x2808) (.leaf 0x2810))))) (.node 0x8330A791F4 (.node 0x8327AF6150 (.node 0x831FB0343D (.leaf 0x2820) (.node 0x831FB0353D (.leaf 0x2840) (.leaf 0x2880))) (.node 0x8330A78A8E (.node 0x8330A783DB (.leaf 0x1F854) (.leaf 0x11BD)) (.node 0x8330A79141 (.leaf 0x11C2) (.leaf 0x11B7)))) (.node 0x8332A78A62 (.node 0x8330A79546 (.node 0x8330A79298 (.leaf 0x11AF) (.leaf 0x11AB)) (.node 0x8331506A9C (.leaf 0x11B8) (.leaf 0x12022))) (.node 0x83344479A8 (.node 0x83330DC163 (.leaf 0x4A9) (.leaf 0x1D6DA)) (.node 0x833AC24614 (.leaf 0x20A6) (.leaf 0x38)))))
def nameTree_1046 : NameTree := .node 0x838A216C0B (.node 0x8379F8E1C6 (.node 0x8376035EEF (.node 0x83710C74CE (.leaf 0x109D7) (.leaf 0x10AD5)) (.node 0x8378325B8F (.leaf 0x6BA) (.leaf 0x2A0D))) (.node 0x83843625BD (.node 0x8381416E35 (.leaf 0x1D157) (.leaf 0x10546)) (.node 0x83884CC4CA (.leaf 0x1F00B) (.leaf 0x1F5A3)))) (.node 0x839879869F (.node 0x83958A2208 (.node 0x83953D6930 (.leaf 0x1F53F) (.leaf 0x1F7A6)) (.node 0x83968677FB (.leaf 0x6F8) (.leaf 0x1209F))) (.node 0x83A563A9FA (.node 0x83A27C8C6B (.leaf 0x12036) (.leaf 0x1234F)) (.node 0x83AF21B6F7 (.leaf 0x1E14) (.leaf 0x1EE0E))))
def nameTree_1047 : NameTree := .node 0x836FDCE5CB (.node 0x8357D3D9EF (.node 0x834DD28C27 (.node 0x833FE45A4A (.leaf 0x11049) (.node 0x834662E541 (.leaf 0xFDAA) (.leaf 0xA74A))) (.node 0x83558F460E (.node 0x834EC36A9C (.leaf 0x1D855) (.leaf 0x12482)) (.node 0x8355E900DA (.leaf 0x81B) (.leaf 0x22CE)))) (.node 0x8369C50CDC (.node 0x83618E4327 (.node 0x835E679302 (.leaf 0x1014A) (.leaf 0x23F5)) (.node 0x8364FF6B00 (.leaf 0x1D955) (.leaf 0x12466))) (.node 0x836B9C74CE (.node 0x836B638B3C (.leaf 0x1F55D) (.leaf 0x301A)) (.node 0x836D7DC8CB (.leaf 0x10AD4) (.leaf 0x16A2))))) (nameTree_1046)
def nameTree_1048 : NameTree := .node 0x83CC6F94AB (.node 0x83C2FD058A (.node 0x83C2BBB783 (.node 0x83C1BBB783 (.leaf 0xA5C) (.leaf 0xA36)) (.node 0x83C2C7B783 (.leaf 0xA25) (.leaf 0xA1F))) (.node 0x83C6DFC5E2 (.node 0x83C50FAD39 (.leaf 0x1BD7) (.leaf 0x100A4)) (.node 0x83CC18D84C (.leaf 0x109FA) (.leaf 0x73D)))) (.node 0x83D572CBE5 (.node 0x83D3993683 (.node 0x83CD973EAB (.leaf 0x73A) (.leaf 0x736)) (.node 0x83D4CFADFC (.leaf 0xFC1D) (.leaf 0x5B4))) (.node 0x83E4771FEA (.node 0x83E308F270 (.leaf 0x11A9) (.leaf 0xA8D0)) (.node 0x83E6EB05E5 (.leaf 0xA725) (.leaf 0x284))))
def nameTree_1049 : NameTree := .node 0x83C0C5B783 (.node 0x83B9BBB783 (.node 0x83B2BBB783 (.node 0x83B1BBB783 (.leaf 0xA2D) (.node 0x83B2B7B783 (.leaf 0xA1B) (.leaf 0xA21))) (.node 0x83B8436F4C (.node 0x83B5BBB783 (.leaf 0xA27) (.leaf 0xA18)) (.node 0x83B8BBB783 (.leaf 0x1DA09) (.leaf 0xA1D)))) (.node 0x83BCC1B783 (.node 0x83BB7FB66D (.node 0x83BABFB783 (.leaf 0xA16) (.leaf 0xA33)) (.node 0x83BCBAB783 (.leaf 0x236C) (.leaf 0xA19))) (.node 0x83BCCE05F2 (.node 0x83BCCCB783 (.leaf 0xA23) (.leaf 0xA1E)) (.node 0x83BEBBB783 (.leaf 0x1F640) (.leaf 0xA2B))))) (nameTree_1048)
def nameTree_1050 : NameTree := .node 0x84360F9450 (.node 0x84267CC82F (.node 0x8421968FC3 (.node 0x841F78C82F (.leaf 0x16AD0) (.leaf 0x2D3A)) (.node 0x84227CC82F (.leaf 0xFC0F) (.leaf 0x2D34))) (.node 0x842F8B0B95 (.node 0x842D73944E (.leaf 0x2D3F) (.leaf 0x10558)) (.node 0x843025CE5E (.leaf 0xF7) (.leaf 0x238C)))) (.node 0x8451AF820F (.node 0x844DCFE575 (.node 0x844007DB29 (.leaf 0x19E4) (.leaf 0x1D7D5)) (.node 0x844E0FBCA6 (.leaf 0x10186) (.leaf 0x10BAE))) (.node 0x8456F124AD (.node 0x845357BB41 (.leaf 0x2751) (.leaf 0xFB64)) (.node 0x84585C94B0 (.leaf 0xAA8D) (.leaf 0x271F))))
def nameTree_1051 : NameTree := .node 0x841B310ED1 (.node 0x84001F6398 (.node 0x83F2E54BC1 (.node 0x83E92ABA3B (.leaf 0x1015B) (.node 0x83EE05A8BA (.leaf 0x25AD) (.leaf 0x110F0))) (.node 0x83F7154B96 (.node 0x83F70F4596 (.leaf 0x1F93D) (.leaf 0x9E1)) (.node 0x83FAE2983D (.leaf 0x9E0) (.leaf 0x1D1A8)))) (.node 0x8408CEC9CA (.node 0x8404EAC419 (.node 0x8404D3B6CA (.leaf 0xE4C) (.leaf 0x11C51)) (.node 0x8405C5A8FF (.leaf 0x2AD0) (.leaf 0x1D842))) (.node 0x840A89A363 (.node 0x8409DCC0CA (.leaf 0x11C56) (.leaf 0x11C52)) (.node 0x8415CCFCA9 (.leaf 0x1EFD) (.leaf 0x2BEE))))) (nameTree_1050)
def nameTree_1052 : NameTree := .node 0x8467F124AD (.node 0x84620224AD (.node 0x845FEDC9AC (.node 0x845EEDC9AC (.leaf 0x1F667) (.node 0x845EF124AD (.leaf 0xD2D) (.leaf 0xAA83))) (.node 0x8460EDC9AC (.node 0x8460E9C9AC (.leaf 0xD1B) (.leaf 0xD21)) (.node 0x8461F024AD (.leaf 0xD27) (.leaf 0xAA89)))) (.node 0x846517AEC7 (.node 0x8463F124AD (.node 0x8463EDC9AC (.leaf 0xAA91) (.leaf 0xD18)) (.node 0x846486642A (.leaf 0xAA9F) (.leaf 0x3336))) (.node 0x846719E784 (.node 0x8466EDC9AC (.leaf 0x1F862) (.leaf 0xD1D)) (.node 0x8467EDC9AC (.leaf 0x1D062) (.leaf 0xD16))))) (.node 0x846EF7C9AC (.node 0x846AECC9AC (.node 0x8468F1C9AC (.leaf 0xAA97) (.node 0x8469C9B754 (.leaf 0xD33) (.leaf 0x35D))) (.node 0x846AFEC9AC (.node 0x846AF3C9AC (.leaf 0xD19) (.leaf 0xD23)) (.node 0x846CEDC9AC (.leaf 0xD1E) (.leaf 0xD2B)))) (.node 0x8470F9C9AC (.node 0x846FF8C9AC (.node 0x846FEDC9AC (.leaf 0xD31) (.leaf 0xD36)) (.node 0x8470EDC9AC (.leaf 0xD37) (.leaf 0xD25))) (.node 0x8475C55F84 (.node 0x847390E50E (.leaf 0xD1F) (.leaf 0x296E)) (.node 0x847829B53F (.leaf 0xFE89) (.leaf 0x109F9)))))
def nameTree_1053 : NameTree := .node 0x84DE7227C2 (.node 0x84CD702B78 (.node 0x84C7668EDF (.node 0x84C2F5B589 (.leaf 0x1D984) (.leaf 0xFC02)) (.node 0x84CA2571C1 (.leaf 0x79A) (.leaf 0x25FA))) (.node 0x84DB5C6D02 (.node 0x84D90E9199 (.leaf 0x2DFD) (.leaf 0x11A9B)) (.node 0x84DBC59C19 (.leaf 0x21A2) (.leaf 0x246)))) (.node 0x84EB767D65 (.node 0x84E31CC232 (.node 0x84E183D117 (.leaf 0x21D1) (.leaf 0x20BC)) (.node 0x84EB037225 (.leaf 0x1E00) (.leaf 0x2CE7))) (.node 0x84FBE00C11 (.node 0x84F719924E (.leaf 0x1BC1) (.leaf 0x1106F)) (.node 0x84FD8533E9 (.leaf 0x1D94C) (.leaf 0x1B39))))
def nameTree_1054 : NameTree := .node 0x84C1BB282B (.node 0x8490DDF74A (.node 0x848A415B35 (.node 0x84804C4DF7 (.leaf 0x10180) (.node 0x848795DA78 (.leaf 0x11665) (.leaf 0x26))) (.node 0x848DE5FF69 (.node 0x848D0FF383 (.leaf 0x1053F) (.leaf 0x10143)) (.node 0x848E84769F (.leaf 0x12249) (.leaf 0x12037)))) (.node 0x84A9DC7053 (.node 0x849C697F0B (.node 0x849B61870B (.leaf 0x2707) (.leaf 0x3E2)) (.node 0x84A16241BE (.leaf 0x2CA4) (.leaf 0x1817))) (.node 0x84B221B0F7 (.node 0x84B21DB4F7 (.leaf 0x10869) (.leaf 0x1EE18)) (.node 0x84BFF4E69C (.leaf 0x1EE16) (.leaf 0x1D846))))) (nameTree_1053)
def nameTree_1055 : NameTree := .node 0x857D416835 (.node 0x856FCB6414 (.node 0x85654D50F2 (.node 0x856460D803 (.leaf 0x11456) (.leaf 0x11452)) (.node 0x8569C342F1 (.leaf 0xFE8D) (.leaf 0x1E8A2))) (.node 0x8579250A7C (.node 0x85789FE51B (.leaf 0x1F423) (.leaf 0x1086C)) (.node 0x8579AFE61B (.leaf 0x1D9B4) (.leaf 0x1086E)))) (.node 0x8586242A00 (.node 0x85829BEF1B (.node 0x857F9BEF1B (.leaf 0x10551) (.leaf 0x10876)) (.node 0x8584377235 (.leaf 0x10865) (.leaf 0x10543))) (.node 0x8588A161E2 (.node 0x8586EFCCA2 (.leaf 0x1F3C9) (.leaf 0x12218)) (.node 0x858EA06EE2 (.leaf 0x1815) (.leaf 0x1814))))
def nameTree_1056 : NameTree := .node 0x856352E103 (.node 0x8523B69A7B (.node 0x8512C0ED0E (.node 0x85053B5F0A (.leaf 0x12C3) (.node 0x850EFD6DA6 (.leaf 0x12C4) (.leaf 0x1F66A))) (.node 0x8519A0444B (.node 0x8512DE54C6 (.leaf 0x2B50) (.leaf 0x394)) (.node 0x851C655535 (.leaf 0x2303) (.leaf 0x2377)))) (.node 0x853D5C5F1B (.node 0x852767E248 (.node 0x8527120C58 (.leaf 0x1DA86) (.leaf 0x1E901)) (.node 0x85376E9F0A (.leaf 0x1087B) (.leaf 0x2906))) (.node 0x855B809150 (.node 0x85462911F3 (.leaf 0xD7) (.leaf 0x27D3)) (.node 0x855F57CE03 (.leaf 0xAD0) (.leaf 0x11451))))) (nameTree_1055)
def nameTree_1057 : NameTree := .node 0x85CBE090B2 (.node 0x85BC9774E7 (.node 0x85B7D6A8B5 (.node 0x85B7D4B4B5 (.leaf 0x1D77B) (.leaf 0x1D77C)) (.node 0x85B7DEA8B5 (.leaf 0x1D77F) (.leaf 0x1D77D))) (.node 0x85CB55651F (.node 0x85BFC79EF1 (.leaf 0x203) (.leaf 0x1E8A4)) (.node 0x85CBE084B2 (.leaf 0x1D13A) (.leaf 0xA94A)))) (.node 0x85D0F47528 (.node 0x85CBE490B2 (.node 0x85CBE47CB2 (.leaf 0xA94C) (.leaf 0xA94E)) (.node 0x85CFEFC38B (.leaf 0xA94D) (.leaf 0xFEEA))) (.node 0x85E32EFAE0 (.node 0x85DD9DE559 (.leaf 0x3013) (.leaf 0x307)) (.node 0x85ED67326B (.leaf 0x3311) (.leaf 0x230B))))
def nameTree_1058 : NameTree := .node 0x85B7D3B4B5 (.node 0x85A832F4AF (.node 0x8597CBEA89 (.node 0x8594B3D424 (.leaf 0x1E900) (.node 0x85951E083D (.leaf 0x1D1AA) (.leaf 0x1D836))) (.node 0x85A283946B (.node 0x859BB57D43 (.leaf 0x1D371) (.leaf 0x33A)) (.node 0x85A71DE668 (.leaf 0x12359) (.leaf 0x6E8)))) (.node 0x85AC39FDAF (.node 0x85AB06AA1E (.node 0x85AA4DD6E8 (.leaf 0x3220) (.leaf 0x1D96D)) (.node 0x85AC2E07AF (.leaf 0x10085) (.leaf 0x3225))) (.node 0x85AD3BFEAF (.node 0x85AD29FDAF (.leaf 0x3230) (.leaf 0x3229)) (.node 0x85AFCFDB56 (.leaf 0x3221) (.leaf 0x1F56D))))) (nameTree_1057)
def nameTree_1059 : NameTree := .node 0x862ABCF969 (.node 0x861DA55D3F (.node 0x8612BD71F5 (.node 0x85FFE4D54E (.leaf 0x2954) (.node 0x860BCD8B96 (.leaf 0x1F91B) (.leaf 0x675))) (.node 0x861B15C96C (.node 0x86141EEF2A (.leaf 0x16974) (.leaf 0x1D892)) (.node 0x861C65508C (.leaf 0x3170) (.leaf 0x375)))) (.node 0x862A46B569 (.node 0x86299A466D (.node 0x861DA625FF (.leaf 0x212B) (.leaf 0x2345)) (.node 0x862A292469 (.leaf 0x1D037) (.leaf 0x181))) (.node 0x862A647D1F (.node 0x862A644669 (.leaf 0x187) (.leaf 0x18A)) (.node 0x862A9F6869 (.leaf 0x115CE) (.leaf 0x191))))) (.node 0x862C5DEA69 (.node 0x862B6E5F69 (.node 0x862ADA8A69 (.leaf 0x193) (.node 0x862B333D69 (.leaf 0xA7AA) (.leaf 0x198))) (.node 0x862BC71269 (.node 0x862BAC8469 (.leaf 0x2C6E) (.leaf 0x1A0)) (.node 0x862C3D5669 (.leaf 0x1A4) (.leaf 0x1AC)))) (.node 0x862CEEBC69 (.node 0x862C960969 (.node 0x862C787869 (.leaf 0x1AF) (.leaf 0x1B2)) (.node 0x862CD12B69 (.leaf 0x2C72) (.leaf 0x1B3))) (.node 0x863156809C (.node 0x862FA26E39 (.leaf 0x224) (.leaf 0xFD98)) (.node 0x8631F7984C (.leaf 0x12023) (.leaf 0x1C37)))))
def nameTree_1060 : NameTree := .node 0x8649CCA4F5 (.node 0x8649CCA0F5 (.node 0x8649CC9EF5 (.node 0x8649CC9DF5 (.leaf 0x310B) (.leaf 0x311B)) (.node 0x8649CC9FF5 (.leaf 0x3106) (.leaf 0x3111))) (.node 0x8649CCA2F5 (.node 0x8649CCA1F5 (.leaf 0x3116) (.leaf 0x3119)) (.node 0x8649CCA3F5 (.leaf 0x310A) (.leaf 0x3128)))) (.node 0x865015609F (.node 0x8649CCA8F5 (.node 0x8649CCA6F5 (.leaf 0x312A) (.leaf 0x3112)) (.node 0x864AAFD262 (.leaf 0x3117) (.leaf 0x727))) (.node 0x8655EA522E (.node 0x8652B96988 (.leaf 0x26A2) (.leaf 0x31E1)) (.node 0x8662474A29 (.leaf 0x1686C) (.leaf 0x1F551))))
def nameTree_1061 : NameTree := .node 0x8649CC9CF5 (.node 0x8649CC94F5 (.node 0x8649CC90F5 (.node 0x8647CB77D0 (.leaf 0x2446) (.node 0x8649CC8FF5 (.leaf 0x32E) (.leaf 0x311A))) (.node 0x8649CC92F5 (.node 0x8649CC91F5 (.leaf 0x3105) (.leaf 0x3118)) (.node 0x8649CC93F5 (.leaf 0x3109) (.leaf 0x311C)))) (.node 0x8649CC98F5 (.node 0x8649CC96F5 (.node 0x8649CC95F5 (.leaf 0x3108) (.leaf 0x310D)) (.node 0x8649CC97F5 (.leaf 0x310F) (.leaf 0x3127))) (.node 0x8649CC9AF5 (.node 0x8649CC99F5 (.leaf 0x3110) (.leaf 0x310E)) (.node 0x8649CC9BF5 (.leaf 0x310C) (.leaf 0x3107))))) (nameTree_1060)
def nameTree_1062 : NameTree := .node 0x867F1D3EC4 (.node 0x867F1D3AC4 (.node 0x867F1D38C4 (.node 0x867F1D37C4 (.leaf 0x1D58B) (.leaf 0x1D58C)) (.node 0x867F1D39C4 (.leaf 0x1D58D) (.leaf 0x1D58E))) (.node 0x867F1D3CC4 (.node 0x867F1D3BC4 (.leaf 0x1D58F) (.leaf 0x1D590)) (.node 0x867F1D3DC4 (.leaf 0x1D591) (.leaf 0x1D592)))) (.node 0x867F1D42C4 (.node 0x867F1D40C4 (.node 0x867F1D3FC4 (.leaf 0x1D593) (.leaf 0x1D594)) (.node 0x867F1D41C4 (.leaf 0x1D595) (.leaf 0x1D596))) (.node 0x867F1D44C4 (.node 0x867F1D43C4 (.leaf 0x1D597) (.leaf 0x1D598)) (.node 0x867F1D45C4 (.leaf 0x1D599) (.leaf 0x1D59A))))
def nameTree_1063 : NameTree := .node 0x867F1D36C4 (.node 0x867E862496 (.node 0x867828101A (.node 0x866B0729BF (.leaf 0x616) (.node 0x8670CF0824 (.leaf 0x1F63C) (.leaf 0x1DF))) (.node 0x867CA9A6B5 (.node 0x867C7C1696 (.leaf 0x124AB) (.leaf 0x1031C)) (.node 0x867E7F2496 (.leaf 0x1F817) (.leaf 0x10317)))) (.node 0x867F1D32C4 (.node 0x867E872496 (.node 0x867E871996 (.leaf 0x1031B) (.leaf 0x1030E)) (.node 0x867F1D31C4 (.leaf 0x1031F) (.leaf 0x1D586))) (.node 0x867F1D34C4 (.node 0x867F1D33C4 (.leaf 0x1D587) (.leaf 0x1D588)) (.node 0x867F1D35C4 (.leaf 0x1D589) (.leaf 0x1D58A))))) (nameTree_1062)
def nameTree_1064 : NameTree := .node 0x869876952F (.node 0x8693CD4784 (.node 0x86922D5DDD (.node 0x868F8D9F1E (.leaf 0x10308) (.leaf 0x1236D)) (.node 0x86930D4961 (.leaf 0x1F8AD) (.leaf 0x2267))) (.node 0x86948D89A4 (.node 0x869479945C (.leaf 0x1D8C) (.leaf 0x12217)) (.node 0x86958D9CBD (.leaf 0x12082) (.leaf 0x122E6)))) (.node 0x869E2B11B8 (.node 0x86998D8BF6 (.node 0x8699014377 (.leaf 0x1D9D6) (.leaf 0x12379)) (.node 0x869B8DA30A (.leaf 0x12051) (.leaf 0x1226D))) (.node 0x86A0807BB3 (.node 0x869F8D94A9 (.leaf 0x122EC) (.leaf 0x12127)) (.node 0x86A45F56F3 (.leaf 0x12239) (.leaf 0x1D84A))))
def nameTree_1065 : NameTree := .node 0x868D7C1696 (.node 0x86846AEC98 (.node 0x867F1D49C4 (.node 0x867F1D47C4 (.leaf 0x1D59B) (.node 0x867F1D48C4 (.leaf 0x1D59C) (.leaf 0x1D59D))) (.node 0x867FD64F19 (.node 0x867F1D4AC4 (.leaf 0x1D59E) (.leaf 0x1D59F)) (.node 0x868449CE7F (.leaf 0x16B55) (.leaf 0x23E3)))) (.node 0x86897C1696 (.node 0x8685D55C19 (.node 0x86847C1696 (.leaf 0x19F6) (.leaf 0x10319)) (.node 0x86882CDEC3 (.leaf 0x16B54) (.leaf 0x2752))) (.node 0x868C7C1696 (.node 0x868A6D6E28 (.leaf 0x10318) (.leaf 0x16B2A)) (.node 0x868CF74000 (.leaf 0x10311) (.leaf 0x1BC9E))))) (nameTree_1064)
def nameTree_1066 : NameTree := .node 0x86E77E2485 (.node 0x86C968A702 (.node 0x86B656F807 (.node 0x86AE10BC7B (.leaf 0xCED) (.node 0x86AE71F921 (.leaf 0x1D7EC) (.leaf 0xFE2C))) (.node 0x86BF83A9EE (.node 0x86BC32AC3E (.leaf 0x168B0) (.leaf 0x10897)) (.node 0x86C911EAA3 (.leaf 0x237A) (.leaf 0x73E)))) (.node 0x86D85A1AFD (.node 0x86CBB25871 (.node 0x86CA905102 (.leaf 0x73B) (.leaf 0x737)) (.node 0x86D1288C20 (.leaf 0x1D938) (.leaf 0x308))) (.node 0x86E2339259 (.node 0x86DD7AE7CF (.leaf 0x966) (.leaf 0x55D)) (.node 0x86E5BBFDBA (.leaf 0x1F844) (.leaf 0x137B))))) (.node 0x87053793BF (.node 0x8705377FBF (.node 0x86EBD6E07E (.leaf 0x29BD) (.node 0x86F2B27D53 (.leaf 0x1163F) (.leaf 0x22AA))) (.node 0x87053787BF (.node 0x87053783BF (.leaf 0x16AE7) (.leaf 0x16AEC)) (.node 0x8705378DBF (.leaf 0x16AED) (.leaf 0x16AE8)))) (.node 0x870DA2869C (.node 0x87063C42B6 (.node 0x87061B0A2E (.leaf 0x16AEA) (.leaf 0x982)) (.node 0x87086B4BC2 (.leaf 0xFDC1) (.leaf 0x1DA47))) (.node 0x8712504F8D (.node 0x87101989FA (.leaf 0x12011) (.leaf 0x12251)) (.node 0x8715DD67DF (.leaf 0x11662) (.leaf 0x1D1B3)))))
def nameTree_1067 : NameTree := .node 0x8777A4A795 (.node 0x876CDD136C (.node 0x875BC447F1 (.node 0x8759217EF3 (.leaf 0xABDE) (.leaf 0x1DCE)) (.node 0x875C07FB60 (.leaf 0x1E896) (.leaf 0xFF1E))) (.node 0x876FE3BF56 (.node 0x876CF8D93F (.leaf 0x279E) (.leaf 0x275C)) (.node 0x87749AA1AF (.leaf 0x2C67) (.leaf 0x12150)))) (.node 0x878493288C (.node 0x877A61A7CA (.node 0x877A268423 (.leaf 0x2BA) (.leaf 0x26C7)) (.node 0x877E96AA03 (.leaf 0x2B64) (.leaf 0x166A))) (.node 0x8784939ED0 (.node 0x878493813F (.leaf 0x1BC23) (.leaf 0x1BC21)) (.node 0x87849432A5 (.leaf 0x1BC22) (.leaf 0x1BC25))))
def nameTree_1068 : NameTree := .node 0x874C85E2FA (.node 0x8730C92D08 (.node 0x8724240DD1 (.node 0x8718F83592 (.leaf 0x1042B) (.node 0x871DE22F57 (.leaf 0x1042D) (.leaf 0xFE84))) (.node 0x872D29D3C1 (.node 0x87260E9A17 (.leaf 0x16ADA) (.leaf 0x2501)) (.node 0x872D95785B (.leaf 0x10A52) (.leaf 0x101FD)))) (.node 0x873DC70E70 (.node 0x8739789142 (.node 0x87362DDC08 (.leaf 0x10A96) (.leaf 0xE0037)) (.node 0x873C07D280 (.leaf 0x1D063) (.leaf 0x1D7D1))) (.node 0x8749B99717 (.node 0x8745CB6F1F (.leaf 0xC2) (.leaf 0xFD62)) (.node 0x8749B9A117 (.leaf 0xA7FB) (.leaf 0xA7FC))))) (nameTree_1067)
def nameTree_1069 : NameTree := .node 0x87C13F666F (.node 0x87B4209EF1 (.node 0x87B243D621 (.node 0x87AC2D6956 (.leaf 0x257F) (.leaf 0xA790)) (.node 0x87B3D19EF1 (.leaf 0xAB4C) (.leaf 0x1E899))) (.node 0x87B482AEB0 (.node 0x87B43057F1 (.leaf 0x1E897) (.leaf 0x1E89B)) (.node 0x87BBE90F44 (.leaf 0x2375) (.leaf 0x12455)))) (.node 0x87C99BBC37 (.node 0x87C6164BF1 (.node 0x87C1518C36 (.leaf 0x1D9A9) (.leaf 0xFCC9)) (.node 0x87C720FEF1 (.leaf 0x1E819) (.leaf 0x1E81A))) (.node 0x87D2AB93BF (.node 0x87CC4CFB98 (.leaf 0xE59) (.leaf 0x23E4)) (.node 0x87D2C7F550 (.leaf 0x1D093) (.leaf 0x10168))))
def nameTree_1070 : NameTree := .node 0x87A89D57F6 (.node 0x878E089456 (.node 0x878807A5EA (.node 0x8788079BEA (.leaf 0x11AD5) (.node 0x8788079FEA (.leaf 0x11AD6) (.leaf 0x11AD7))) (.node 0x878B1E8A0D (.node 0x878807ABEA (.leaf 0x11AD8) (.leaf 0x11AD9)) (.node 0x878BAAFBED (.leaf 0xFBFB) (.leaf 0x321D)))) (.node 0x879C607F0B (.node 0x8795316E35 (.node 0x8790F94313 (.leaf 0x2C69) (.leaf 0xAFF)) (.node 0x879A9BE478 (.leaf 0x10545) (.leaf 0x22A6))) (.node 0x87A7D2BAF6 (.node 0x879D623915 (.leaf 0x2C82) (.leaf 0x1813)) (.node 0x87A83DA63E (.leaf 0x2BCD) (.leaf 0x10883))))) (nameTree_1069)
def nameTree_1071 : NameTree := .node 0x88079D3901 (.node 0x88064DC0E8 (.node 0x87FF7C2450 (.node 0x87FD8392DA (.leaf 0x1F0AD) (.leaf 0x1246E)) (.node 0x88004EB3E8 (.leaf 0x1F0BD) (.leaf 0x1045))) (.node 0x88079A3901 (.node 0x8807993901 (.leaf 0x1044) (.leaf 0x11ACC)) (.node 0x88079B3901 (.leaf 0x11ACD) (.leaf 0x11AC4)))) (.node 0x8807A23901 (.node 0x88079F3901 (.node 0x88079E3901 (.leaf 0x11AD3) (.leaf 0x11AC9)) (.node 0x8807A03901 (.leaf 0x11AC8) (.leaf 0x11ADB))) (.node 0x8807A43901 (.node 0x8807A33901 (.leaf 0x11AC1) (.leaf 0x11AC2)) (.node 0x8807A53901 (.leaf 0x11AC3) (.leaf 0x11AD0))))
def nameTree_1072 : NameTree := .node 0x87F170E50D (.node 0x87E1C1DCC9 (.node 0x87DE96265A (.node 0x87D5339F6F (.leaf 0xFB4D) (.node 0x87DCEE1C6F (.leaf 0x1200E) (.leaf 0x34A))) (.node 0x87DE9F365A (.node 0x87DE9F305A (.leaf 0x2C1A) (.leaf 0x2C26)) (.node 0x87E1C1D6C9 (.leaf 0x2C23) (.leaf 0x1143C)))) (.node 0x87E81457D2 (.node 0x87E56423B8 (.node 0x87E2CF9859 (.leaf 0x1143A) (.leaf 0x1234E)) (.node 0x87E582A572 (.leaf 0x221F) (.leaf 0x1378))) (.node 0x87EE1364D2 (.node 0x87EBF95381 (.leaf 0xF2E) (.leaf 0x266A)) (.node 0x87F1641DDF (.leaf 0xF2D) (.leaf 0x6CA))))) (nameTree_1071)
def nameTree_1073 : NameTree := .node 0x881F7807C1 (.node 0x8807E5DC8C (.node 0x8807AB3901 (.node 0x8807A93901 (.leaf 0x11AC0) (.node 0x8807AA3901 (.leaf 0x11AD2) (.leaf 0x11ACB))) (.node 0x8807AD3901 (.node 0x8807AC3901 (.leaf 0x11ACE) (.leaf 0x11ADA)) (.node 0x8807B13901 (.leaf 0x11AC6) (.leaf 0x11AC5)))) (.node 0x8810791B96 (.node 0x880BDE5A36 (.node 0x88095B3039 (.leaf 0x2C8) (.leaf 0x1D8D3)) (.node 0x880F46D72E (.leaf 0x398) (.leaf 0x2BC))) (.node 0x881742CA35 (.node 0x881501BC4C (.leaf 0x1D0DB) (.leaf 0x111C2)) (.node 0x881C9AAEB6 (.leaf 0x1F722) (.leaf 0x23C))))) (.node 0x8833E39FB5 (.node 0x88284F79F2 (.node 0x8821D9F747 (.leaf 0x58F) (.node 0x8824C0BD56 (.leaf 0x2990) (.leaf 0x2C6B))) (.node 0x882FC4104B (.node 0x882B407567 (.leaf 0x1135) (.leaf 0x1DC1)) (.node 0x88310ADC67 (.leaf 0x613) (.leaf 0x1D7D6)))) (.node 0x884216BA94 (.node 0x883E08FE84 (.node 0x8836B38592 (.leaf 0x225B) (.leaf 0x2C01)) (.node 0x883F34EB80 (.leaf 0x2255) (.leaf 0xAA59))) (.node 0x8850766BEE (.node 0x8847284112 (.leaf 0x2734) (.leaf 0x16A6E)) (.node 0x8850785E45 (.leaf 0x10012) (.leaf 0x10014)))))
def nameTree_1074 : NameTree := .node 0x887DE09D2D (.node 0x886FC08161 (.node 0x886780C6E4 (.node 0x886398CB56 (.leaf 0x1E877) (.leaf 0x10330)) (.node 0x886F31D486 (.leaf 0x3B2) (.leaf 0x12214))) (.node 0x887379EFF1 (.node 0x887317A7F1 (.leaf 0x755) (.leaf 0x1E8C1)) (.node 0x887477A7F1 (.leaf 0x1E8C4) (.leaf 0x1E8C3)))) (.node 0x8881E09A1E (.node 0x8880E09A1E (.node 0x887EE09C2D (.leaf 0x1BC2E) (.leaf 0x1BC40)) (.node 0x8880E09B7A (.leaf 0x1BC2D) (.leaf 0x1BC2C))) (.node 0x888289A800 (.node 0x8881E09B23 (.leaf 0x1BC31) (.leaf 0x1BC2B)) (.node 0x8883E09C2D (.leaf 0x1F0AC) (.leaf 0x1BC35))))
def nameTree_1075 : NameTree := .node 0x886276EAF1 (.node 0x8855915475 (.node 0x88508264E9 (.node 0x88507B7140 (.leaf 0x1001B) (.node 0x88507D5D97 (.leaf 0x10022) (.leaf 0x10028))) (.node 0x8855914C75 (.node 0x8850856A3B (.leaf 0x10039) (.leaf 0x1003F)) (.node 0x8855915075 (.leaf 0x11083) (.leaf 0x11089)))) (.node 0x885E7C51F1 (.node 0x8855916075 (.node 0x8855915A75 (.leaf 0x11085) (.leaf 0x1108B)) (.node 0x885BAF6719 (.leaf 0x11087) (.leaf 0x1F901))) (.node 0x88612550F1 (.node 0x8860C4E7F1 (.leaf 0x1E8B3) (.leaf 0x1E878)) (.node 0x886220A4F1 (.leaf 0x1E88A) (.leaf 0x1E879))))) (nameTree_1074)
def nameTree_1076 : NameTree := .node 0x88CA754BF1 (.node 0x88BF1705A6 (.node 0x88BA764CF1 (.node 0x88B91F4BF1 (.leaf 0x1E87B) (.leaf 0x1E889)) (.node 0x88BAC4F5F1 (.leaf 0x1E8B8) (.leaf 0x1E8B7))) (.node 0x88C390DAE1 (.node 0x88C12E6779 (.leaf 0x109FB) (.leaf 0x1E28)) (.node 0x88C6245000 (.leaf 0x1BD6) (.leaf 0x21C1)))) (.node 0x88DC3099FC (.node 0x88D75AE93D (.node 0x88CAD6EFF1 (.leaf 0x1E8C0) (.leaf 0x1E8C2)) (.node 0x88DA96F7B0 (.leaf 0x27BD) (.leaf 0x323))) (.node 0x88DDF79877 (.node 0x88DC5C57CB (.leaf 0x109FF) (.leaf 0x237F)) (.node 0x88DE44E98D (.leaf 0xA905) (.leaf 0x109F7))))
def nameTree_1077 : NameTree := .node 0x88B7C5F0F1 (.node 0x88926542FC (.node 0x8885E09D84 (.node 0x8885E09919 (.leaf 0x1F917) (.node 0x8885E09A75 (.leaf 0x1BC3E) (.leaf 0x1BC3D))) (.node 0x889094E743 (.node 0x8887E09C2D (.leaf 0x1BC37) (.leaf 0x1BC33)) (.node 0x8891716E00 (.leaf 0x1F0BC) (.leaf 0x247A)))) (.node 0x88ACA74F26 (.node 0x88AAD5647C (.node 0x88938FD069 (.leaf 0x1818) (.leaf 0x1D81)) (.node 0x88AAD6697C (.leaf 0x1D1D0) (.leaf 0x1D1D1))) (.node 0x88B6753DF1 (.node 0x88ACAC4F26 (.leaf 0x1D076) (.leaf 0x1D077)) (.node 0x88B715F0F1 (.leaf 0x1E8B1) (.leaf 0x1E87D))))) (nameTree_1076)
def nameTree_1078 : NameTree := .node 0x8902B8E07C (.node 0x8902B2E07C (.node 0x8902B0E07C (.node 0x8902AFE07C (.leaf 0xAA0E) (.leaf 0xAA06)) (.node 0x8902B1E07C (.leaf 0xAA24) (.leaf 0xAA20))) (.node 0x8902B6E07C (.node 0x8902B4E07C (.leaf 0xAA18) (.leaf 0xAA1A)) (.node 0x8902B7E07C (.leaf 0xAA23) (.leaf 0xAA27)))) (.node 0x89044021F1 (.node 0x8902BDE07C (.node 0x8902BAE07C (.leaf 0xAA13) (.leaf 0xAA25)) (.node 0x8902C4BC2C (.leaf 0xAA22) (.leaf 0x1012C))) (.node 0x8914FB6BFA (.node 0x890DD759DF (.leaf 0x1D8D9) (.leaf 0x3A3)) (.node 0x8915565FFA (.leaf 0x168BF) (.leaf 0x168F8))))
def nameTree_1079 : NameTree := .node 0x8902AEE07C (.node 0x88FC523966 (.node 0x88F0014286 (.node 0x88EB0EC911 (.leaf 0xA904) (.node 0x88EBDFCB25 (.leaf 0x2330) (.leaf 0x293B))) (.node 0x88F543DDF4 (.node 0x88F52B7DED (.leaf 0x1F5E6) (.leaf 0x1D944)) (.node 0x88F5C5E342 (.leaf 0x1D816) (.leaf 0x2B68)))) (.node 0x8902A6E07C (.node 0x8900DFD2FD (.node 0x88FEE3F22E (.leaf 0x10155) (.leaf 0x267F)) (.node 0x8902A5E87C (.leaf 0x11180) (.leaf 0xAA04))) (.node 0x8902ABE07C (.node 0x8902A8E07C (.leaf 0xAA1D) (.leaf 0xAA15)) (.node 0x8902ACE07C (.leaf 0xAA08) (.leaf 0xAA28))))) (nameTree_1078)
def nameTree_1080 : NameTree := .node 0x894EF977C5 (.node 0x893F50C200 (.node 0x89281E8B90 (.node 0x8915BD5FFA (.leaf 0x16946) (.node 0x8924408DAC (.leaf 0x16981) (.leaf 0xFD2C))) (.node 0x893A21EBDE (.node 0x89335A630C (.leaf 0x201B) (.leaf 0x2762)) (.node 0x893D72E9CD (.leaf 0x1D958) (.leaf 0x1F0C7)))) (.node 0x894A026EC5 (.node 0x893FCACC24 (.node 0x893FC2D624 (.leaf 0x2A04) (.leaf 0x18EB)) (.node 0x8946BE0F29 (.leaf 0x18EA) (.leaf 0x2923))) (.node 0x894E0CDEA8 (.node 0x894DFD81C5 (.leaf 0x3021) (.leaf 0x3026)) (.node 0x894EB68D5A (.leaf 0x115D3) (.leaf 0x1F0C3))))) (.node 0x89507E5C92 (.node 0x89506F7140 (.node 0x894F0B78C5 (.leaf 0x3038) (.node 0x89506F5B8D (.leaf 0x3022) (.leaf 0x10005))) (.node 0x89507B69E4 (.node 0x8950767245 (.leaf 0x10009) (.leaf 0x10013)) (.node 0x89507C643B (.leaf 0x10021) (.leaf 0x10025)))) (.node 0x8961C6C8D3 (.node 0x895A34E1C9 (.node 0x89507E64E9 (.leaf 0x1002D) (.leaf 0x1002F)) (.node 0x895EC79CE2 (.leaf 0xD90) (.leaf 0x1F5F9))) (.node 0x896AC9CA03 (.node 0x8968C82C22 (.leaf 0x1FD) (.leaf 0x16A48)) (.node 0x896E92B449 (.leaf 0xFED9) (.leaf 0xE0060)))))
def nameTree_1081 : NameTree := .node 0x89D39577E5 (.node 0x89A787E3D1 (.node 0x89A70C8E42 (.node 0x89A6DC3FAC (.leaf 0xFE5C) (.leaf 0x1FCF)) (.node 0x89A785E2D1 (.leaf 0x1F1A5) (.leaf 0x102B1))) (.node 0x89C9280D37 (.node 0x89AF4C1D47 (.leaf 0x102C6) (.leaf 0x7D1)) (.node 0x89CEC7A9FC (.leaf 0xF1D) (.leaf 0x5B9)))) (.node 0x89E01CC42C (.node 0x89DAEBB70D (.node 0x89D9341337 (.leaf 0xEE) (.leaf 0xFCF)) (.node 0x89DF28A4D6 (.leaf 0x1C3D) (.leaf 0x1E73))) (.node 0x89EBE0A73D (.node 0x89E193F7EC (.leaf 0x1F5A1) (.leaf 0x1F668)) (.node 0x89F0D6E7EE (.leaf 0x1D912) (.leaf 0x21F7))))
def nameTree_1082 : NameTree := .node 0x89A6A1F205 (.node 0x8995F3287A (.node 0x898A12714F (.node 0x897E90E82B (.leaf 0xA74) (.node 0x898834E0F2 (.leaf 0x1F4CE) (.leaf 0x16FE0))) (.node 0x898DEDA411 (.node 0x898B3F5D35 (.leaf 0x299A) (.leaf 0x1054E)) (.node 0x8994CF7B9C (.leaf 0x1FFC) (.leaf 0x2414)))) (.node 0x899D479172 (.node 0x8998FCD609 (.node 0x89968C2754 (.leaf 0x11238) (.leaf 0x3004)) (.node 0x899B32CA5C (.leaf 0x55C) (.leaf 0x2AE0))) (.node 0x899F42335D (.node 0x899E0A32F6 (.leaf 0x1FB8) (.leaf 0x1F903)) (.node 0x89A0CFA3F1 (.leaf 0x1EEA) (.leaf 0xCE9))))) (nameTree_1081)
def nameTree_1083 : NameTree := .node 0x8A507D698D (.node 0x8A45DDBF03 (.node 0x8A3CE181D1 (.node 0x8A322DD35F (.leaf 0x1EFE) (.leaf 0xE0033)) (.node 0x8A4000BB6E (.leaf 0x20AB) (.leaf 0x2485))) (.node 0x8A507B61EE (.node 0x8A50796B40 (.leaf 0x10B5E) (.leaf 0x1001C)) (.node 0x8A507C6A92 (.leaf 0x1001F) (.leaf 0x10026)))) (.node 0x8A5910CF17 (.node 0x8A50826AE9 (.node 0x8A507E69E4 (.leaf 0x1002B) (.leaf 0x10030)) (.node 0x8A57FA8C39 (.leaf 0x1003A) (.leaf 0xFD5B))) (.node 0x8A6315D2C6 (.node 0x8A5A989974 (.leaf 0x1F598) (.leaf 0x10AF2)) (.node 0x8A640D44AE (.leaf 0x1F54E) (.leaf 0xFD09))))
def nameTree_1084 : NameTree := .node 0x8A2CD13069 (.node 0x8A0E120836 (.node 0x8A042E1783 (.node 0x89FD7DB145 (.leaf 0xF04) (.node 0x8A0300BE0F (.leaf 0x102E0) (.leaf 0xFC5E))) (.node 0x8A09A0F683 (.node 0x8A04BEBACF (.leaf 0x1B3A) (.leaf 0x319F)) (.node 0x8A0A902ACB (.leaf 0x2BA2) (.leaf 0x3015)))) (.node 0x8A2226CFD9 (.node 0x8A1C474E89 (.node 0x8A126667FA (.leaf 0x46A) (.leaf 0x16938)) (.node 0x8A1D240DD1 (.leaf 0x2765) (.leaf 0x16AD8))) (.node 0x8A29476B9C (.node 0x8A269E4C99 (.leaf 0x12440) (.leaf 0x12257)) (.node 0x8A2BA98669 (.leaf 0x12025) (.leaf 0xA74C))))) (nameTree_1083)
def nameTree_1085 : NameTree := .node 0x8A95D2ADD8 (.node 0x8A75B0884A (.node 0x8A69B6BC7C (.node 0x8A69B3BC7C (.leaf 0xA9B1) (.leaf 0xA9A0)) (.node 0x8A69B8BC7C (.leaf 0xA9AE) (.leaf 0xA9AA))) (.node 0x8A7E5C9A19 (.node 0x8A77DD0AB8 (.leaf 0x1014D) (.leaf 0x10890)) (.node 0x8A8D1F19EA (.leaf 0x1203D) (.leaf 0x239A)))) (.node 0x8AAB25B6F7 (.node 0x8A9D13E668 (.node 0x8A990F80D4 (.leaf 0xCEE) (.leaf 0x2481)) (.node 0x8AA4D658A6 (.leaf 0x6DC) (.leaf 0x498))) (.node 0x8AB1F80D09 (.node 0x8AB1873D6B (.leaf 0x1EE06) (.leaf 0x2AB4)) (.node 0x8AB4A28576 (.leaf 0x1F86A) (.leaf 0x1946))))
def nameTree_1086 : NameTree := .node 0x8A69B2BC7C (.node 0x8A69A8C47C (.node 0x8A69A2BC7C (.node 0x8A69A0C47C (.leaf 0x1E70) (.node 0x8A69A1BC7C (.leaf 0xA98D) (.leaf 0xA9A7))) (.node 0x8A69A6BC7C (.node 0x8A69A3BC7C (.leaf 0xA995) (.leaf 0xA9A2)) (.node 0x8A69A7BC7C (.leaf 0xA992) (.leaf 0xA9B2)))) (.node 0x8A69ACBC7C (.node 0x8A69AABC7C (.node 0x8A69A9BC7C (.leaf 0xA987) (.leaf 0xA997)) (.node 0x8A69ABBC7C (.leaf 0xA98F) (.leaf 0xA9AD))) (.node 0x8A69AFBC7C (.node 0x8A69ADBC7C (.leaf 0xA9A9) (.leaf 0xA9A4)) (.node 0x8A69B1BC7C (.leaf 0xA9A5) (.leaf 0xA9AB))))) (nameTree_1085)
def nameTree_1087 : NameTree := .node 0x8ADC0E21BD (.node 0x8AD19804F3 (.node 0x8ACBF84924 (.node 0x8ABB8E9A6B (.leaf 0x3192) (.node 0x8ACADF6D14 (.leaf 0xFBED) (.leaf 0x17D9))) (.node 0x8ACBF85124 (.node 0x8ACBF84A24 (.leaf 0x144B) (.leaf 0x1409)) (.node 0x8ACBF85B24 (.leaf 0x15EE) (.leaf 0x1646)))) (.node 0x8ADC0821BD (.node 0x8ADC0128BD (.node 0x8AD5E75586 (.leaf 0xB6D) (.leaf 0x3317)) (.node 0x8ADC0129BD (.leaf 0x104B3) (.leaf 0x104B1))) (.node 0x8ADC0C21BD (.node 0x8ADC0B21BD (.leaf 0x104B9) (.leaf 0x104BC)) (.node 0x8ADC0D21BD (.leaf 0x104BF) (.leaf 0x104C0))))) (.node 0x8ADFE001CE (.node 0x8ADC1421BD (.node 0x8ADC1021BD (.leaf 0x104C1) (.node 0x8ADC1321BD (.leaf 0x104C4) (.leaf 0x104C6))) (.node 0x8ADC1A21BD (.node 0x8ADC1721BD (.leaf 0x104C8) (.leaf 0x104CF)) (.node 0x8ADCC8A9E8 (.leaf 0x104D2) (.leaf 0x10A72)))) (.node 0x8AE62BED21 (.node 0x8AE4EF41C1 (.node 0x8AE3E52A4C (.leaf 0x1DA8) (.leaf 0x2960)) (.node 0x8AE52AF0D6 (.leaf 0x1F30A) (.leaf 0x3302))) (.node 0x8AE9C4A9E8 (.node 0x8AE8B4A8E8 (.leaf 0x2965) (.leaf 0x10A63)) (.node 0x8AEEB0AFE8 (.leaf 0x10A6C) (.leaf 0x10A6A)))))
def nameTree_1088 : NameTree := .node 0x8B24096FB7 (.node 0x8B170BE452 (.node 0x8B16FDD652 (.node 0x8B12322BD0 (.leaf 0x169E1) (.leaf 0x3180)) (.node 0x8B1705DE52 (.leaf 0x149F) (.leaf 0x1497))) (.node 0x8B20D06CF4 (.node 0x8B1AA96204 (.leaf 0x149B) (.leaf 0x16999)) (.node 0x8B216A77C3 (.leaf 0xFCBD) (.leaf 0x1D966)))) (.node 0x8B2730DD46 (.node 0x8B24A4601C (.node 0x8B24606FB7 (.leaf 0x168E4) (.leaf 0x16925)) (.node 0x8B25A4601C (.leaf 0x10503) (.leaf 0x10506))) (.node 0x8B28A6601C (.node 0x8B28A4601C (.leaf 0xE0038) (.leaf 0x10525)) (.node 0x8B2A52872B (.leaf 0x1050B) (.leaf 0x1C40))))
def nameTree_1089 : NameTree := .node 0x8B0EAD6CB7 (.node 0x8B09A283BD (.node 0x8AFEA283BD (.node 0x8AF2B0B2E8 (.leaf 0x10A69) (.node 0x8AFAED946A (.leaf 0x10A65) (.leaf 0x1D91F))) (.node 0x8B0303F4A5 (.node 0x8B02A283BD (.leaf 0x1384) (.leaf 0x1388)) (.node 0x8B05523A69 (.leaf 0x1F462) (.leaf 0xFB54)))) (.node 0x8B0DA87209 (.node 0x8B0D516A4C (.node 0x8B0CA283BD (.leaf 0x1380) (.leaf 0x138C)) (.node 0x8B0D516D04 (.leaf 0x1682F) (.leaf 0x1682E))) (.node 0x8B0E566C09 (.node 0x8B0DFF70AD (.leaf 0x16876) (.leaf 0x168AF)) (.node 0x8B0EAD6AAD (.leaf 0x168FB) (.leaf 0x1699B))))) (nameTree_1088)
def nameTree_1090 : NameTree := .node 0x8B3A92F284 (.node 0x8B3A92EC84 (.node 0x8B3A92EA84 (.node 0x8B3A92E984 (.leaf 0x10939) (.leaf 0x10923)) (.node 0x8B3A92EB84 (.leaf 0x10924) (.leaf 0x10931))) (.node 0x8B3A92F084 (.node 0x8B3A92EE84 (.leaf 0x10922) (.leaf 0x10926)) (.node 0x8B3A92F184 (.leaf 0x10928) (.leaf 0x10929)))) (.node 0x8B3A92F784 (.node 0x8B3A92F484 (.node 0x8B3A92F384 (.leaf 0x1092A) (.leaf 0x1092B)) (.node 0x8B3A92F684 (.leaf 0x1092C) (.leaf 0x10932))) (.node 0x8B3A92F984 (.node 0x8B3A92F884 (.leaf 0x1092D) (.leaf 0x10933)) (.node 0x8B3A92FA84 (.leaf 0x1092F) (.leaf 0x10930))))
def nameTree_1091 : NameTree := .node 0x8B3A92E884 (.node 0x8B33AE601C (.node 0x8B2F55AFED (.node 0x8B2DA8601C (.leaf 0x10527) (.node 0x8B2EC8ADBA (.leaf 0x10511) (.leaf 0x1241C))) (.node 0x8B2FA6601C (.node 0x8B2FA0601C (.leaf 0xFEA8) (.leaf 0x10505)) (.node 0x8B329C9044 (.leaf 0x10515) (.leaf 0x2A0F)))) (.node 0x8B35D641A3 (.node 0x8B34A4601C (.node 0x8B348954E0 (.leaf 0x1051A) (.leaf 0x261D)) (.node 0x8B35A4601C (.leaf 0x1051C) (.leaf 0x1051E))) (.node 0x8B3A92E684 (.node 0x8B37EEDFD1 (.leaf 0x22C2) (.leaf 0x22A4)) (.node 0x8B3A92E784 (.leaf 0x10920) (.leaf 0x10921))))) (nameTree_1090)
def nameTree_1092 : NameTree := .node 0x8B6D57548A (.node 0x8B6D57488A (.node 0x8B6D57428A (.node 0x8B6D57418A (.leaf 0x16CD) (.leaf 0x16D1)) (.node 0x8B6D57448A (.leaf 0x16C2) (.leaf 0x16B5))) (.node 0x8B6D574E8A (.node 0x8B6D574C8A (.leaf 0x16F1) (.leaf 0x16AE)) (.node 0x8B6D57538A (.leaf 0x16E9) (.leaf 0x16A1)))) (.node 0x8B70D732F0 (.node 0x8B6D57568A (.node 0x8B6D57558A (.leaf 0x16A5) (.leaf 0x16EA)) (.node 0x8B6D57578A (.leaf 0x16A4) (.leaf 0x16CE))) (.node 0x8B749732B0 (.node 0x8B7174BE44 (.leaf 0x1D8D5) (.leaf 0x1D751)) (.node 0x8B819C4321 (.leaf 0x1D9FB) (.leaf 0x10AEB))))
def nameTree_1093 : NameTree := .node 0x8B6D57408A (.node 0x8B5078703B (.node 0x8B3C7F71B6 (.node 0x8B3A92FE84 (.leaf 0x10925) (.node 0x8B3BA4601C (.leaf 0x10927) (.leaf 0x10524))) (.node 0x8B50785FE4 (.node 0x8B506C4EE9 (.leaf 0x1F51A) (.leaf 0x10041)) (.node 0x8B507865EE (.leaf 0x10015) (.leaf 0x10016)))) (.node 0x8B5C8CDD56 (.node 0x8B507D6540 (.node 0x8B507B5B8D (.leaf 0x10018) (.leaf 0x1001E)) (.node 0x8B52EA45BD (.leaf 0x1002A) (.leaf 0x2AF6))) (.node 0x8B6434E1C9 (.node 0x8B61CC3022 (.leaf 0x10333) (.leaf 0x16A4E)) (.node 0x8B645920BF (.leaf 0xD8E) (.leaf 0xA80B))))) (nameTree_1092)
def nameTree_1094 : NameTree := .node 0x8BE436023C (.node 0x8BD15A9FB0 (.node 0x8BBF4B8C9B (.node 0x8BBEECB8B4 (.leaf 0x1D985) (.leaf 0x1D7CA)) (.node 0x8BC4013B20 (.leaf 0x1F0D3) (.leaf 0x1F574))) (.node 0x8BDCC9CE7E (.node 0x8BD85EC860 (.leaf 0x1899) (.leaf 0x3367)) (.node 0x8BE32A03EF (.leaf 0x3368) (.leaf 0x3340)))) (.node 0x8BF24FAF4F (.node 0x8BE93A0341 (.node 0x8BE4380737 (.leaf 0x331E) (.leaf 0x3341)) (.node 0x8BED5EA9FE (.leaf 0x3329) (.leaf 0x110A))) (.node 0x8BF44BAF4F (.node 0x8BF34FAF4F (.leaf 0xCAD) (.leaf 0xC9B)) (.node 0x8BF44FAF4F (.leaf 0xCA1) (.leaf 0xCA7))))
def nameTree_1095 : NameTree := .node 0x8BBCB61135 (.node 0x8B9D629371 (.node 0x8B8D716557 (.node 0x8B853F6C35 (.leaf 0x1D6D) (.node 0x8B86934C21 (.leaf 0x10562) (.leaf 0x10AED))) (.node 0x8B92508128 (.node 0x8B91A0DCD6 (.leaf 0x2476) (.leaf 0x1D9C9)) (.node 0x8B94707F0B (.leaf 0x318) (.leaf 0x2C8C)))) (.node 0x8BAE21F3BF (.node 0x8BAC4B71AB (.node 0x8BA5A25940 (.leaf 0x102EE) (.leaf 0x11A99)) (.node 0x8BAD1AF06D (.leaf 0x1FB9) (.leaf 0x2280))) (.node 0x8BAF6297DC (.node 0x8BAF0D38AD (.leaf 0x2281) (.leaf 0x1DA7E)) (.node 0x8BB38701DD (.leaf 0x102EF) (.leaf 0x1D813))))) (nameTree_1094)
def nameTree_1096 : NameTree := .node 0x8C18567A9B (.node 0x8C12E8398B (.node 0x8C10F4A833 (.node 0x8C0901AA33 (.leaf 0xC9F) (.leaf 0x12372)) (.node 0x8C11125FA1 (.leaf 0x1202C) (.leaf 0x1F532))) (.node 0x8C16D253C1 (.node 0x8C168EA6D9 (.leaf 0x221D) (.leaf 0x1F748)) (.node 0x8C185673E8 (.leaf 0x391) (.leaf 0x1136)))) (.node 0x8C18568553 (.node 0x8C18568201 (.node 0x8C1856814E (.leaf 0x113B) (.leaf 0x1131)) (.node 0x8C185682A5 (.leaf 0x1130) (.leaf 0x112E))) (.node 0x8C240B8DD9 (.node 0x8C18A05579 (.leaf 0x1132) (.leaf 0x1F756)) (.node 0x8C2ABC6D92 (.leaf 0x1D0D3) (.leaf 0x2C2A))))
def nameTree_1097 : NameTree := .node 0x8C045BAF4F (.node 0x8BFE4EAF4F (.node 0x8BFA4FAF4F (.node 0x8BF74FAF4F (.leaf 0x1F900) (.node 0x8BF7D179B8 (.leaf 0xC98) (.leaf 0x1D1D4))) (.node 0x8BFC53AF4F (.node 0x8BFB4FAF4F (.leaf 0xC9D) (.leaf 0xC96)) (.node 0x8BFD4029DE (.leaf 0xCB3) (.leaf 0x16B83)))) (.node 0x8C0259AF4F (.node 0x8BFE60AF4F (.node 0x8BFE55AF4F (.leaf 0xC99) (.leaf 0xCA3)) (.node 0x8C004FAF4F (.leaf 0xC9E) (.leaf 0xCAB))) (.node 0x8C035AAF4F (.node 0x8C034FAF4F (.leaf 0xCB1) (.leaf 0xCB6)) (.node 0x8C044FAF4F (.leaf 0xCB7) (.leaf 0xCA5))))) (nameTree_1096)
def nameTree_1098 : NameTree := .node 0x8C4FAA40BA (.node 0x8C4FA640BA (.node 0x8C4FA440BA (.node 0x8C4FA340BA (.leaf 0x10B17) (.leaf 0x10B1B)) (.node 0x8C4FA540BA (.leaf 0x10B09) (.leaf 0x10B1F))) (.node 0x8C4FA844BA (.node 0x8C4FA740BA (.leaf 0x10B14) (.leaf 0x10B35)) (.node 0x8C4FA940BA (.leaf 0x10B0D) (.leaf 0x10B18)))) (.node 0x8C4FAE4ABA (.node 0x8C4FAC40BA (.node 0x8C4FAB40BA (.leaf 0x10B10) (.leaf 0x10B2E)) (.node 0x8C4FAD40BA (.leaf 0x10B28) (.leaf 0x10B25))) (.node 0x8C4FB140BA (.node 0x8C4FAF40BA (.leaf 0x10B0B) (.leaf 0x10B1E)) (.node 0x8C4FB240BA (.leaf 0x10B2D) (.leaf 0x10B2F))))
def nameTree_1099 : NameTree := .node 0x8C4FA240BA (.node 0x8C47030E3D (.node 0x8C37FCB09D (.node 0x8C2DEFD676 (.leaf 0x4DF3) (.node 0x8C2E6B8038 (.leaf 0x1F5C2) (.leaf 0x1F30E))) (.node 0x8C3E7E88DF (.node 0x8C3B4BCADD (.leaf 0x2A6C) (.leaf 0x10156)) (.node 0x8C3E9B8230 (.leaf 0x1EA2) (.leaf 0x2650)))) (.node 0x8C4FA040BA (.node 0x8C4C1E11A9 (.node 0x8C471507A9 (.leaf 0xFCC3) (.leaf 0x9F4)) (.node 0x8C4FA03CBA (.leaf 0x9F5) (.leaf 0x10B01))) (.node 0x8C4FA04ABA (.node 0x8C4FA049BA (.leaf 0x10B06) (.leaf 0x10B04)) (.node 0x8C4FA140BA (.leaf 0x10B02) (.leaf 0x10B20))))) (nameTree_1098)
def nameTree_1100 : NameTree := .node 0x8C811F2189 (.node 0x8C6D913A25 (.node 0x8C6C0D0CBF (.node 0x8C6A93B462 (.leaf 0x3196) (.leaf 0xAAAE)) (.node 0x8C6D3911CF (.leaf 0xA802) (.leaf 0x3193))) (.node 0x8C6FCB067A (.node 0x8C6F19AA0B (.leaf 0xFC1A) (.leaf 0x12371)) (.node 0x8C7B7CFF4E (.leaf 0x120EA) (.leaf 0x21E1)))) (.node 0x8C8A656727 (.node 0x8C82746F3E (.node 0x8C812E0A28 (.leaf 0x108F) (.leaf 0x1B36)) (.node 0x8C88CBB36A (.leaf 0x247B) (.leaf 0x3F4))) (.node 0x8C8C55382B (.node 0x8C8A9E3857 (.leaf 0x1D84F) (.leaf 0x26DA)) (.node 0x8C8C59BC9F (.leaf 0x1212A) (.leaf 0x1038D))))
def nameTree_1101 : NameTree := .node 0x8C6A8168CF (.node 0x8C507660E9 (.node 0x8C4FB740BA (.node 0x8C4FB450BA (.leaf 0x10B19) (.node 0x8C4FB540BA (.leaf 0x10B0F) (.leaf 0x10B2C))) (.node 0x8C4FB940BA (.node 0x8C4FB840BA (.leaf 0x10B11) (.leaf 0x10B2B)) (.node 0x8C506F69E4 (.leaf 0x10B30) (.leaf 0x10008)))) (.node 0x8C508561EE (.node 0x8C507F5F8D (.node 0x8C5079603B (.leaf 0x10010) (.leaf 0x1001A)) (.node 0x8C50825D40 (.leaf 0x10033) (.leaf 0x10037))) (.node 0x8C60805184 (.node 0x8C5A491C81 (.leaf 0x1003D) (.leaf 0x8AD)) (.node 0x8C691262E4 (.leaf 0xD01) (.leaf 0x1F396))))) (nameTree_1100)
def nameTree_1102 : NameTree := .node 0x8807A73901 (.node 0x85FDD603F0 (.node 0x845AED80E6 (.node 0x83B0BBB783 (.node 0x833F69BB31 (nameTree_1045) (nameTree_1047)) (.node 0x83E915B8DA (nameTree_1049) (nameTree_1051))) (.node 0x8505375B0A (.node 0x84794BC60C (nameTree_1052) (nameTree_1054)) (.node 0x85902F0BB5 (nameTree_1056) (nameTree_1058)))) (.node 0x86A4CFAC9A (.node 0x866AEB682B (.node 0x8632BF060F (nameTree_1059) (nameTree_1061)) (.node 0x867F1D46C4 (nameTree_1063) (nameTree_1065))) (.node 0x87880797EA (.node 0x8718EA2E92 (nameTree_1066) (nameTree_1068)) (.node 0x87D317C941 (nameTree_1070) (nameTree_1072))))) (.node 0x8AB726ABCF (.node 0x8915666EFA (.node 0x88857ED15F (.node 0x8850796492 (nameTree_1073) (nameTree_1075)) (.node 0x88E3F6A577 (nameTree_1077) (nameTree_1079))) (.node 0x89FD1853C1 (.node 0x896F9D12B4 (nameTree_1080) (nameTree_1082)) (.node 0x8A655D289F (nameTree_1084) (nameTree_1086)))) (.node 0x8B820A83E4 (.node 0x8B2CA4601C (.node 0x8AEFB0B2E8 (nameTree_1087) (nameTree_1089)) (.node 0x8B3A92FB84 (nameTree_1091) (nameTree_1093))) (.node 0x8C2B40D466 (.node 0x8BF4836A69 (nameTree_1095) (nameTree_1097)) (.node 0x8C4FB340BA (nameTree_1099) (nameTree_1101)))))
def nameTree_1103 : NameTree := .node 0x8CB802E6EA (.node 0x8CA7EBB526 (.node 0x8C925DBEA9 (.node 0x8C8C61BAEC (.leaf 0x10392) (.node 0x8C906BF02B (.leaf 0x10382) (.leaf 0x122FF))) (.node 0x8C9B493010 (.node 0x8C9273382B (.leaf 0x10397) (.leaf 0x1235E)) (.node 0x8C9BB0823E (.leaf 0x1F534) (.leaf 0x60E)))) (.node 0x8CA9EBB526 (.node 0x8CA8EBB126 (.node 0x8CA8EBA926 (.leaf 0x16951) (.leaf 0x169D5)) (.node 0x8CA8EBB726 (.leaf 0x169D8) (.leaf 0x169D7))) (.node 0x8CB069753E (.node 0x8CA9EBBD26 (.leaf 0x16A11) (.leaf 0x16A04)) (.node 0x8CB2EAC036 (.leaf 0x12238) (.leaf 0x2E1A))))) (.node 0x8CEBCC868A (.node 0x8CC52516EA (.node 0x8CBD16C01A (.leaf 0xD7DA) (.node 0x8CBD1CC61A (.leaf 0x11609) (.leaf 0x11607))) (.node 0x8CE147339F (.node 0x8CDC84497D (.leaf 0x1EE5F) (.leaf 0x1F48E)) (.node 0x8CEB1DCDC1 (.leaf 0x229E) (.leaf 0xFD97)))) (.node 0x8D0744413D (.node 0x8D0002E8FC (.node 0x8CF30C7E6C (.leaf 0x3358) (.leaf 0x2C61)) (.node 0x8D00104232 (.leaf 0x10144) (.leaf 0x215E))) (.node 0x8D0E566DF5 (.node 0x8D0BD15883 (.leaf 0xFC34) (.leaf 0x3A9)) (.node 0x8D18F478E5 (.leaf 0x16921) (.leaf 0x1C61)))))
def nameTree_1104 : NameTree := .node 0x8D506C4D3B (.node 0x8D4916A36E (.node 0x8D490FA67D (.node 0x8D4814A36E (.leaf 0x13415) (.leaf 0x13225)) (.node 0x8D4910A67D (.leaf 0x13240) (.leaf 0x13242))) (.node 0x8D4A11A67D (.node 0x8D4917A67D (.leaf 0x13232) (.leaf 0x1324A)) (.node 0x8D4F031B69 (.leaf 0x1324F) (.leaf 0x2486)))) (.node 0x8D507869E4 (.node 0x8D506F60E9 (.node 0x8D506C7245 (.leaf 0x10040) (.leaf 0x10042)) (.node 0x8D50757197 (.leaf 0x10006) (.leaf 0x1000E))) (.node 0x8D507F698D (.node 0x8D50797140 (.leaf 0x10017) (.leaf 0x1001D)) (.node 0x8D508261EE (.leaf 0x10035) (.leaf 0x10038))))
def nameTree_1105 : NameTree := .node 0x8D481235B1 (.node 0x8D23F46FE5 (.node 0x8D190175E5 (.node 0x8D18F47BE5 (.leaf 0x1C60) (.node 0x8D18F485E5 (.leaf 0x1C62) (.leaf 0x1C63))) (.node 0x8D1D0580E5 (.node 0x8D1CF772E5 (.leaf 0x1C5D) (.leaf 0x1C70)) (.node 0x8D210187E5 (.leaf 0x1C72) (.leaf 0x1C67)))) (.node 0x8D327F22C7 (.node 0x8D2D017CE5 (.node 0x8D270782E5 (.leaf 0x1C5F) (.leaf 0x1C74)) (.node 0x8D2D0DBCFC (.leaf 0x1C6C) (.leaf 0xFDA7))) (.node 0x8D47B889DF (.node 0x8D3B8C0431 (.leaf 0x17DC) (.leaf 0xFE19)) (.node 0x8D481234B1 (.leaf 0xAF1) (.leaf 0x13414))))) (nameTree_1104)
def nameTree_1106 : NameTree := .node 0x8D8221D88D (.node 0x8D7F42E5CD (.node 0x8D7C9B652E (.node 0x8D789DD61E (.leaf 0x3E4) (.leaf 0x108A9)) (.node 0x8D7CA6652E (.leaf 0x2CAC) (.leaf 0x2C9C))) (.node 0x8D81A6652E (.node 0x8D80A2712E (.leaf 0x1DB2) (.leaf 0x2CB0)) (.node 0x8D81EEE6C0 (.leaf 0x2CAE) (.leaf 0x171)))) (.node 0x8D8C011D8D (.node 0x8D8594712E (.node 0x8D84A2712E (.leaf 0x27CE) (.leaf 0x2C8A)) (.node 0x8D889961E2 (.leaf 0x2CA6) (.leaf 0x1819))) (.node 0x8D975A7D84 (.node 0x8D92644EF3 (.leaf 0x525) (.leaf 0x660)) (.node 0x8D9F8CAF34 (.leaf 0xD7EE) (.leaf 0x1D8A6))))
def nameTree_1107 : NameTree := .node 0x8D7798652E (.node 0x8D715FFC97 (.node 0x8D5FE6620A (.node 0x8D562B4F0F (.leaf 0x16B) (.node 0x8D5B36E858 (.leaf 0xC7E) (.leaf 0x2A06))) (.node 0x8D69F4EA64 (.node 0x8D6637AEDE (.leaf 0xDD6) (.leaf 0xA7AE)) (.node 0x8D7043EACD (.leaf 0x4FE) (.leaf 0x1D5C)))) (.node 0x8D744EE4CD (.node 0x8D7448E3CD (.node 0x8D7242E5CD (.leaf 0x1808) (.leaf 0x1D61)) (.node 0x8D744DE4CD (.leaf 0x1D51) (.leaf 0x1DB4))) (.node 0x8D7598652E (.node 0x8D7454E4CD (.leaf 0x1D9E) (.leaf 0x1DBE)) (.node 0x8D769C612E (.leaf 0x3EE) (.leaf 0x2C88))))) (nameTree_1106)
def nameTree_1108 : NameTree := .node 0x8DE0B9AD1C (.node 0x8DCD97FC4A (.node 0x8DCC6EF471 (.node 0x8DC8DB4A6C (.leaf 0x2030) (.leaf 0x25E7)) (.node 0x8DCD4737AA (.leaf 0x2413) (.leaf 0x224F))) (.node 0x8DDE0EF61A (.node 0x8DD3668EDF (.leaf 0xB69) (.leaf 0x798)) (.node 0x8DE0B3A77C (.leaf 0x1F866) (.leaf 0x1D10A)))) (.node 0x8DE48A30F3 (.node 0x8DE4860149 (.node 0x8DE48033F3 (.leaf 0x10334) (.leaf 0x12021)) (.node 0x8DE48728F3 (.leaf 0x1200F) (.leaf 0x12024))) (.node 0x8DE502AC15 (.node 0x8DE4FF7439 (.leaf 0x12026) (.leaf 0x12090)) (.node 0x8DE5A690B8 (.leaf 0x1209A) (.leaf 0x12159))))
def nameTree_1109 : NameTree := .node 0x8DC862FF8F (.node 0x8DB92B1487 (.node 0x8DAAEFAAD6 (.node 0x8DA817AB36 (.leaf 0x259C) (.node 0x8DA83DA63E (.leaf 0x1F6CC) (.leaf 0x1088A))) (.node 0x8DB39094F1 (.node 0x8DAF0838F2 (.leaf 0x1F103) (.leaf 0x1D978)) (.node 0x8DB58C8DCD (.leaf 0x1D2F) (.leaf 0x11F0)))) (.node 0x8DC5432D23 (.node 0x8DB9C756CB (.node 0x8DB994A98A (.leaf 0x122C4) (.leaf 0x124A0)) (.node 0x8DC2530CB0 (.leaf 0x752) (.leaf 0x27F0))) (.node 0x8DC7AD2262 (.node 0x8DC7668EDF (.leaf 0x8FB) (.leaf 0x78C)) (.node 0x8DC7D8A610 (.leaf 0x1D6B6) (.leaf 0x5B5))))) (nameTree_1108)
def nameTree_1110 : NameTree := .node 0x8DE5B7A1B8 (.node 0x8DE5B095B8 (.node 0x8DE5AC95B8 (.node 0x8DE5A7A1B8 (.leaf 0x1215F) (.node 0x8DE5AC8DB8 (.leaf 0x124D0) (.leaf 0x12162))) (.node 0x8DE5AE99B8 (.node 0x8DE5ACA1B8 (.leaf 0x12167) (.leaf 0x1216B)) (.node 0x8DE5B08DB8 (.leaf 0x1216E) (.leaf 0x124D1)))) (.node 0x8DE5B295B8 (.node 0x8DE5B1A1B8 (.node 0x8DE5B195B8 (.leaf 0x12170) (.leaf 0x12172)) (.node 0x8DE5B291B8 (.leaf 0x12173) (.leaf 0x12174))) (.node 0x8DE5B58DB8 (.node 0x8DE5B391B8 (.leaf 0x12178) (.leaf 0x1217A)) (.node 0x8DE5B595B8 (.leaf 0x12384) (.leaf 0x1217C))))) (.node 0x8DE5BF95B8 (.node 0x8DE5BA7EB8 (.node 0x8DE5B88DB8 (.leaf 0x1217D) (.node 0x8DE5B9A1B8 (.leaf 0x1217E) (.leaf 0x12386))) (.node 0x8DE5BA9EB8 (.node 0x8DE5BA90B8 (.leaf 0x12188) (.leaf 0x12189)) (.node 0x8DE5BB7D40 (.leaf 0x124D3) (.leaf 0x121A3)))) (.node 0x8DE63C6340 (.node 0x8DE63B5040 (.node 0x8DE613B9FC (.leaf 0x1218C) (.leaf 0x1224A)) (.node 0x8DE63C5740 (.leaf 0x12281) (.leaf 0x12282))) (.node 0x8DE64F4040 (.node 0x8DE6435040 (.leaf 0x12283) (.leaf 0x12286)) (.node 0x8DE6B7AEB8 (.leaf 0x12288) (.leaf 0x122ED)))))
def nameTree_1111 : NameTree := .node 0x8E50756A92 (.node 0x8E3C53B12C (.node 0x8E26BA8192 (.node 0x8E243A1C2B (.leaf 0x3219) (.leaf 0x27E0)) (.node 0x8E2D9A0222 (.leaf 0x2C18) (.leaf 0x10754))) (.node 0x8E4967CA4B (.node 0x8E3EB412CC (.leaf 0x2575) (.leaf 0x1D72A)) (.node 0x8E507560E9 (.leaf 0xBF2) (.leaf 0x1000B)))) (.node 0x8E51A84E23 (.node 0x8E507C5BE4 (.node 0x8E50795B8D (.leaf 0x1000D) (.leaf 0x10019)) (.node 0x8E507D703B (.leaf 0x10023) (.leaf 0x1002C))) (.node 0x8E5F46DC87 (.node 0x8E5F46D887 (.leaf 0x2968) (.leaf 0x17B6)) (.node 0x8E5F46E087 (.leaf 0x17C2) (.leaf 0x17C3))))
def nameTree_1112 : NameTree := .node 0x8E1D86BFB6 (.node 0x8DF990511A (.node 0x8DEA007EB3 (.node 0x8DE6DA986B (.leaf 0x122EE) (.node 0x8DE6DB9E84 (.leaf 0x12316) (.leaf 0x12398))) (.node 0x8DEE283011 (.node 0x8DEDF47CC1 (.leaf 0x1D115) (.leaf 0x60D)) (.node 0x8DF58E2450 (.leaf 0x4CB) (.leaf 0x4DD4)))) (.node 0x8E16FDD652 (.node 0x8E0FFC142A (.node 0x8E0C039C08 (.leaf 0x1F5CD) (.leaf 0x1211D)) (.node 0x8E147A52E1 (.leaf 0x2B7D) (.leaf 0x1215D))) (.node 0x8E1B0BAFE7 (.node 0x8E1AE7A4A2 (.leaf 0x155C) (.leaf 0x2B18)) (.node 0x8E1CD2B1CE (.leaf 0x1D0D7) (.leaf 0x1242A))))) (nameTree_1111)
def nameTree_1113 : NameTree := .node 0x8E8E3F0E34 (.node 0x8E84377335 (.node 0x8E81416535 (.node 0x8E7FCE4F19 (.leaf 0xA967) (.leaf 0x16B59)) (.node 0x8E84296535 (.leaf 0x1055A) (.leaf 0x10550))) (.node 0x8E8A6D6D7A (.node 0x8E87F1BA5D (.leaf 0x1055D) (.leaf 0x1F0CC)) (.node 0x8E8D2F12B5 (.leaf 0x16B2B) (.leaf 0x1E914)))) (.node 0x8E9CD7E239 (.node 0x8E95694454 (.node 0x8E91C9DD73 (.leaf 0xFBB2) (.leaf 0x25BD)) (.node 0x8E956D6D7A (.leaf 0x1DA19) (.leaf 0x16B1D))) (.node 0x8E9CFB39BB (.node 0x8E9CF129D0 (.leaf 0x112A9) (.leaf 0xD83)) (.node 0x8EA70F2860 (.leaf 0xFB71) (.leaf 0x1DA02))))
def nameTree_1114 : NameTree := .node 0x8E7CC0F492 (.node 0x8E5F5ED887 (.node 0x8E5F54DC87 (.node 0x8E5F4EDC87 (.leaf 0x17C5) (.node 0x8E5F4EE087 (.leaf 0x17C0) (.leaf 0x17B8))) (.node 0x8E5F5AD887 (.node 0x8E5F54E687 (.leaf 0x17BE) (.leaf 0x17C4)) (.node 0x8E5F5AEC87 (.leaf 0x17BD) (.leaf 0x17BC)))) (.node 0x8E6487CB56 (.node 0x8E60252721 (.node 0x8E5F5EF087 (.leaf 0x17BF) (.leaf 0x17BA)) (.node 0x8E620AFF95 (.leaf 0x1F6E) (.leaf 0x1086))) (.node 0x8E74A441D6 (.node 0x8E6780C6E4 (.leaf 0x10332) (.leaf 0x371)) (.node 0x8E7BC8CB50 (.leaf 0x303C) (.leaf 0x5BF))))) (nameTree_1113)
def nameTree_1115 : NameTree := .node 0x8EECDCC69C (.node 0x8EDFBF16C5 (.node 0x8EDC6F5331 (.node 0x8EDC6F5231 (.leaf 0x1EC9) (.leaf 0x19C8)) (.node 0x8EDCE3039C (.leaf 0x19C9) (.leaf 0x2E38))) (.node 0x8EE1D936BD (.node 0x8EDFDFF864 (.leaf 0x10338) (.leaf 0x26E4)) (.node 0x8EE7E84D14 (.leaf 0x6EA) (.leaf 0x23F2)))) (.node 0x8EF7632914 (.node 0x8EEEB71B5D (.node 0x8EEEB510CC (.leaf 0x1157) (.leaf 0x1E06)) (.node 0x8EF0004C74 (.leaf 0x1D059) (.leaf 0x11AF7))) (.node 0x8F023925C6 (.node 0x8EFD7B6202 (.leaf 0x26EF) (.leaf 0x102E7)) (.node 0x8F02392C79 (.leaf 0x3149) (.leaf 0x3185))))
def nameTree_1116 : NameTree := .node 0x8ED44CF254 (.node 0x8EC233472F (.node 0x8EB5496D08 (.node 0x8EB31A4749 (.leaf 0x1D795) (.node 0x8EB44DA8FB (.leaf 0x2354) (.leaf 0xA69D))) (.node 0x8EBA3D4AFC (.node 0x8EB9244F49 (.leaf 0x1214A) (.leaf 0x233B)) (.node 0x8EBF77AED3 (.leaf 0x1F5E1) (.leaf 0xFC7D)))) (.node 0x8EC58E1358 (.node 0x8EC29B0631 (.node 0x8EC2540288 (.leaf 0x2240) (.leaf 0x1D7E9)) (.node 0x8EC48E1976 (.leaf 0xB6E) (.leaf 0x1F72))) (.node 0x8ED15C6DD1 (.node 0x8ECB23F613 (.leaf 0x1F11) (.leaf 0x19DF)) (.node 0x8ED2BF4D5A (.leaf 0x6B2) (.leaf 0x2598))))) (nameTree_1115)
def nameTree_1117 : NameTree := .node 0x8F461F0014 (.node 0x8F104DE028 (.node 0x8F042A21DE (.node 0x8F02393731 (.leaf 0x3165) (.node 0x8F03AB0825 (.leaf 0x3143) (.leaf 0x21BB))) (.node 0x8F085C44C5 (.node 0x8F046FA6BD (.leaf 0x16B88) (.leaf 0xFC2A)) (.node 0x8F0D530FED (.leaf 0x2A41) (.leaf 0x16F32)))) (.node 0x8F3AF531C5 (.node 0x8F2278DD2F (.node 0x8F1592AD86 (.leaf 0x849) (.leaf 0x1CE1)) (.node 0x8F358013D9 (.leaf 0x2CFA) (.leaf 0x1D85D))) (.node 0x8F411273E4 (.node 0x8F3BB07192 (.leaf 0x22D4) (.leaf 0x2C09)) (.node 0x8F41B18771 (.leaf 0x1D8AB) (.leaf 0x2C55))))) (.node 0x8F50855BE4 (.node 0x8F50765DEE (.node 0x8F506F638D (.leaf 0x1A62) (.node 0x8F50755D40 (.leaf 0x10007) (.leaf 0x1000A))) (.node 0x8F507D603B (.node 0x8F50766597 (.leaf 0x1000F) (.leaf 0x10011)) (.node 0x8F507F6492 (.leaf 0x10029) (.leaf 0x10034)))) (.node 0x8F58AA6CD4 (.node 0x8F54C6CD80 (.node 0x8F53EB9469 (.leaf 0x1003C) (.leaf 0x1F43)) (.node 0x8F55344D5A (.leaf 0x468) (.leaf 0x2509))) (.node 0x8F5C8CD656 (.node 0x8F597D4427 (.leaf 0x2480) (.leaf 0x1E2C)) (.node 0x8F5F0386AE (.leaf 0x10337) (.leaf 0xFB60)))))
def nameTree_1118 : NameTree := .node 0x8FD0041BD9 (.node 0x8FAFE66FEA (.node 0x8F968835FE (.node 0x8F96882FFE (.leaf 0x1574) (.leaf 0x1575)) (.node 0x8F9FC9273C (.leaf 0x1577) (.leaf 0xD73))) (.node 0x8FBC27873F (.node 0x8FB84FD0C6 (.leaf 0x49F) (.leaf 0x2949)) (.node 0x8FCC31D4C5 (.leaf 0x739) (.leaf 0xE005D)))) (.node 0x8FF154A200 (.node 0x8FD10D7C51 (.node 0x8FD00BDFF5 (.leaf 0x2186) (.leaf 0xFC4A)) (.node 0x8FE80C57D2 (.leaf 0x689) (.leaf 0xF32))) (.node 0x8FFD3E29DE (.node 0x8FF8039B41 (.leaf 0x27F1) (.leaf 0x7F9)) (.node 0x900046B3E8 (.leaf 0x16B80) (.leaf 0x1049))))
def nameTree_1119 : NameTree := .node 0x8F96882BFE (.node 0x8F732D65AC (.node 0x8F6BDF75D9 (.node 0x8F67C3CCFD (.leaf 0x1085) (.node 0x8F680C7208 (.leaf 0x121E0) (.leaf 0x121B1))) (.node 0x8F7180C6E4 (.node 0x8F6BDF7FD9 (.leaf 0x25B) (.leaf 0x254)) (.node 0x8F73113AFE (.leaf 0x3B9) (.leaf 0x2407)))) (.node 0x8F8CB5B40D (.node 0x8F84AE00D8 (.node 0x8F7A4AC719 (.leaf 0x20E4) (.leaf 0x2A45)) (.node 0x8F853F6C35 (.leaf 0x1ABA) (.leaf 0x1055C))) (.node 0x8F95297335 (.node 0x8F8E14EF04 (.leaf 0x1209D) (.leaf 0x1D867)) (.node 0x8F968827FE (.leaf 0x10553) (.leaf 0x1579))))) (nameTree_1118)
def nameTree_1120 : NameTree := .node 0x9053499BB3 (.node 0x904F75B284 (.node 0x904BCEB5DE (.node 0x9049ED434D (.leaf 0xFEEE) (.leaf 0x20AE)) (.node 0x904BF16274 (.leaf 0x2568) (.leaf 0x31AE))) (.node 0x90507E7140 (.node 0x90507C61EE (.leaf 0x1DA56) (.leaf 0x10024)) (.node 0x9052B26C6D (.leaf 0x10031) (.leaf 0x1DE5)))) (.node 0x90614A9F25 (.node 0x905722885F (.node 0x90562214A7 (.leaf 0x103CD) (.leaf 0x21E9)) (.node 0x9057F16274 (.leaf 0x8F6) (.leaf 0x31AF))) (.node 0x9073A7FE38 (.node 0x90708FCB56 (.leaf 0xC78) (.leaf 0x10336)) (.node 0x9075CF16AB (.leaf 0x2A4A) (.leaf 0x2BD0))))
def nameTree_1121 : NameTree := .node 0x90476F5A18 (.node 0x9021EC6AE5 (.node 0x90120F67FA (.node 0x90092B666D (.leaf 0x1F101) (.node 0x900A12B561 (.leaf 0xFFB5) (.leaf 0x1F31E))) (.node 0x90160ABF08 (.node 0x90141788D3 (.leaf 0x168A3) (.leaf 0x1D8DA)) (.node 0x901C463F59 (.leaf 0x1222F) (.leaf 0xD3C)))) (.node 0x90384541DF (.node 0x902EC45350 (.node 0x9029634238 (.leaf 0x1091F) (.leaf 0x1E001)) (.node 0x90330DE7C2 (.leaf 0x11C41) (.leaf 0x2122))) (.node 0x90408ECE1A (.node 0x903E0672CB (.leaf 0xFB33) (.leaf 0x21F1)) (.node 0x9046B4503D (.leaf 0xA92C) (.leaf 0xB0))))) (nameTree_1120)
def nameTree_1122 : NameTree := .node 0x90D541EC21 (.node 0x90D1E0F6B0 (.node 0x90CA9138BC (.node 0x90B90F13FF (.leaf 0x1DC7) (.leaf 0x1F6C2)) (.node 0x90D0E9F6B0 (.leaf 0x25AE) (.leaf 0x1A07))) (.node 0x90D1F2F6B0 (.node 0x90D1EBF6B0 (.leaf 0x1A02) (.leaf 0x1A0B)) (.node 0x90D4404930 (.leaf 0x1A0E) (.leaf 0x1F370)))) (.node 0x90E8E8682F (.node 0x90DDEF9877 (.node 0x90D5E2B091 (.leaf 0xFBE4) (.leaf 0xFBD7)) (.node 0x90E6316B9E (.leaf 0xA909) (.leaf 0x2A2B))) (.node 0x90F40972A4 (.node 0x90F31D9C4E (.leaf 0x1D156) (.leaf 0x11066)) (.node 0x90FA97C948 (.leaf 0x603) (.leaf 0x800))))
def nameTree_1123 : NameTree := .node 0x90B3944107 (.node 0x909579D198 (.node 0x908A2D5604 (.node 0x9082780006 (.leaf 0xA9B3) (.node 0x90852712B5 (.leaf 0x2E08) (.leaf 0x1E902))) (.node 0x908B69B9E7 (.node 0x908A68D198 (.leaf 0x983) (.leaf 0x7D7)) (.node 0x908E62D198 (.leaf 0x10384) (.leaf 0x7DC)))) (.node 0x90A22433B5 (.node 0x909DF20767 (.node 0x909972D198 (.leaf 0x7E2) (.leaf 0x7DA)) (.node 0x909F639BA0 (.leaf 0x2AA0) (.leaf 0x7B0))) (.node 0x90AA988DBC (.node 0x90A439A63E (.leaf 0x301) (.leaf 0x1088F)) (.node 0x90B286CC90 (.leaf 0x1F835) (.leaf 0x1F79F))))) (nameTree_1122)
def nameTree_1124 : NameTree := .node 0x9128378D69 (.node 0x9118D040BE (.node 0x9105A25EE9 (.node 0x90FDDA0981 (.leaf 0x601) (.node 0x910412D7F9 (.leaf 0x6C1) (.leaf 0x1230A))) (.node 0x910A255C67 (.node 0x9108AE6A9C (.leaf 0x1D925) (.leaf 0x12481)) (.node 0x91112A32DE (.leaf 0xD59) (.leaf 0x16B84)))) (.node 0x9128378769 (.node 0x9122B37B92 (.node 0x9118D041BE (.leaf 0x1BC66) (.leaf 0x1BC65)) (.node 0x91267EC026 (.leaf 0x2C0D) (.leaf 0xF1B))) (.node 0x9128378A69 (.node 0x9128378869 (.leaf 0x102A0) (.leaf 0x102A9)) (.node 0x9128378B69 (.leaf 0x102A2) (.leaf 0x102BA))))) (.node 0x9128379669 (.node 0x9128379269 (.node 0x9128378F69 (.leaf 0x102C0) (.node 0x9128379169 (.leaf 0x102B9) (.leaf 0x102BC))) (.node 0x9128379469 (.node 0x9128379369 (.leaf 0x102A3) (.leaf 0x102AA)) (.node 0x9128379569 (.leaf 0x102B5) (.leaf 0x102AB)))) (.node 0x9128379A69 (.node 0x9128379869 (.node 0x9128379769 (.leaf 0x102B7) (.leaf 0x102A8)) (.node 0x9128379969 (.leaf 0x102A5) (.leaf 0x102B0))) (.node 0x9128379E69 (.node 0x9128379B69 (.leaf 0x102AD) (.leaf 0x102B2)) (.node 0x9133A34E67 (.leaf 0x102B4) (.leaf 0xFFE4)))))
def nameTree_1125 : NameTree := .node 0x915BCB9603 (.node 0x915729B85D (.node 0x9155CB9603 (.node 0x9152CB9603 (.leaf 0x10036) (.leaf 0x11090)) (.node 0x9156CB9603 (.leaf 0x11095) (.leaf 0x1108E))) (.node 0x9159D19603 (.node 0x9159CA9603 (.leaf 0x1E03) (.leaf 0x11091)) (.node 0x9159DC9603 (.leaf 0x1109D) (.leaf 0x11096)))) (.node 0x915FCB9603 (.node 0x915ECB9603 (.node 0x915DCB9603 (.leaf 0x110A4) (.leaf 0x1109C)) (.node 0x915ED69603 (.leaf 0x110AC) (.leaf 0x110AD))) (.node 0x916135FF5D (.node 0x915FD79603 (.leaf 0x1109F) (.leaf 0x11097)) (.node 0x916B42465D (.leaf 0x10B) (.leaf 0x1E0B))))
def nameTree_1126 : NameTree := .node 0x91507F7197 (.node 0x914D52B5B2 (.node 0x9146744B64 (.node 0x913F2890F7 (.leaf 0xFCF6) (.node 0x91463D9118 (.leaf 0xF1F) (.leaf 0x241C))) (.node 0x914B0EB9B1 (.node 0x9149AC605C (.leaf 0x1F482) (.leaf 0x1FE5)) (.node 0x914D1D715D (.leaf 0x72E) (.leaf 0x227)))) (.node 0x914FCB9603 (.node 0x914ECB9603 (.node 0x914DCB9603 (.leaf 0x2772) (.leaf 0x110A6)) (.node 0x914FC79603 (.leaf 0x11093) (.leaf 0x11099))) (.node 0x91507E5F8D (.node 0x91507B6492 (.leaf 0x110A1) (.leaf 0x10020)) (.node 0x91507F5D40 (.leaf 0x1002E) (.leaf 0x10032))))) (nameTree_1125)
def nameTree_1127 : NameTree := .node 0x91A8323839 (.node 0x91A0750295 (.node 0x919C228D93 (.node 0x91991F59C1 (.leaf 0x617) (.leaf 0x1D967)) (.node 0x919E4CC2A1 (.leaf 0x1F727) (.leaf 0x1EEBB))) (.node 0x91A48D6B17 (.node 0x91A248C6B5 (.leaf 0xFD7) (.leaf 0x1EEB4)) (.node 0x91A4CDC537 (.leaf 0x8A4) (.leaf 0x1F94B)))) (.node 0x91B12441D9 (.node 0x91A9B0EFB5 (.node 0x91A9629371 (.leaf 0xA9B8) (.leaf 0x102ED)) (.node 0x91AF0E163C (.leaf 0x1D17F) (.leaf 0xA835))) (.node 0x91B6DBDC99 (.node 0x91B4FD791C (.leaf 0x1F4A1) (.leaf 0x316A)) (.node 0x91BAA4683F (.leaf 0x23E9) (.leaf 0x11C88))))
def nameTree_1128 : NameTree := .node 0x919917E668 (.node 0x91846111FC (.node 0x917AA34EFC (.node 0x9171FF0525 (.leaf 0x10A47) (.node 0x91754E8D5D (.leaf 0x1236C) (.leaf 0x117))) (.node 0x9181417435 (.node 0x917F5AD45D (.leaf 0x2763) (.leaf 0x1E1F)) (.node 0x9181AC0226 (.leaf 0x1055B) (.leaf 0x1DA03)))) (.node 0x918C45C6EE (.node 0x918A22D8FC (.node 0x9189671B5D (.leaf 0xA8CE) (.leaf 0x121)) (.node 0x918B38208B (.leaf 0x12143) (.leaf 0xFBB3))) (.node 0x9190271EF4 (.node 0x918D2F12B5 (.leaf 0x507) (.leaf 0x1E903)) (.node 0x919373625D (.leaf 0x10E66) (.leaf 0x1E23))))) (nameTree_1127)
def nameTree_1129 : NameTree := .node 0x91D3E6910D (.node 0x91C3BB20B7 (.node 0x91BE53F9DF (.node 0x91BAD1683F (.leaf 0x11C89) (.leaf 0x11C87)) (.node 0x91C3BB1CB7 (.leaf 0x1D7E5) (.leaf 0x11106))) (.node 0x91C5B0C55D (.node 0x91C3BB2CB7 (.leaf 0x11104) (.leaf 0x11105)) (.node 0x91CFBD0C5D (.leaf 0x1E41) (.leaf 0x1E45)))) (.node 0x91D922E593 (.node 0x91D5FF89FA (.node 0x91D5DC29C8 (.leaf 0x1E1B) (.leaf 0x21F4)) (.node 0x91D60089FA (.leaf 0x1DEF) (.leaf 0x1DD9))) (.node 0x91DA2C31FF (.node 0x91D9C9535D (.leaf 0xFB61) (.leaf 0x22F)) (.node 0x91DA8A4F39 (.leaf 0x1E8D6) (.leaf 0x1F81B))))
def nameTree_1130 : NameTree := .node 0x91BAD0683F (.node 0x91BAC3683F (.node 0x91BABE683F (.node 0x91BABA683F (.leaf 0x11C80) (.node 0x91BABB683F (.leaf 0x11C76) (.leaf 0x11C7C))) (.node 0x91BAC1683F (.node 0x91BABF683F (.leaf 0x11C74) (.leaf 0x11C8E)) (.node 0x91BAC2683F (.leaf 0x11C78) (.leaf 0x11C72)))) (.node 0x91BAC9683F (.node 0x91BAC5683F (.node 0x91BAC4683F (.leaf 0x11C8B) (.leaf 0x11C81)) (.node 0x91BAC7683F (.leaf 0x11C7D) (.leaf 0x11C7E))) (.node 0x91BACB683F (.node 0x91BACA683F (.leaf 0x11C8A) (.leaf 0x11C8D)) (.node 0x91BACE683F (.leaf 0x11C7A) (.leaf 0x11C85))))) (nameTree_1129)
def nameTree_1131 : NameTree := .node 0x9201FA6F5D (.node 0x91ED1E0500 (.node 0x91E52EFE9D (.node 0x91E1B5164E (.leaf 0x2579) (.node 0x91E3D59A5D (.leaf 0x215B) (.leaf 0x1E57))) (.node 0x91EBDC7040 (.node 0x91E7270037 (.leaf 0x3353) (.leaf 0x3335)) (.node 0x91ECB9791C (.leaf 0x1218A) (.leaf 0x3166)))) (.node 0x91F7EE285D (.node 0x91F5ABF6EC (.node 0x91F2CF3F2E (.leaf 0x12201) (.leaf 0x1D98)) (.node 0x91F6E67B13 (.leaf 0x12454) (.leaf 0x2ED9))) (.node 0x91FFAF2EC3 (.node 0x91F97B5959 (.leaf 0x1E59) (.leaf 0x102E3)) (.node 0x9200F0E338 (.leaf 0x6AA) (.leaf 0x20DF))))) (.node 0x921605F17D (.node 0x920ED051D8 (.node 0x9209B019EC (.leaf 0x1E61) (.node 0x920C06B65D (.leaf 0x12439) (.leaf 0x1E6B))) (.node 0x92127590FA (.node 0x921006E47D (.leaf 0x1D304) (.leaf 0x2075)) (.node 0x92127E93FA (.leaf 0x1B6E) (.leaf 0x1B6D)))) (.node 0x921E8131B2 (.node 0x92193EBF08 (.node 0x9216C1F2E9 (.leaf 0x2074) (.leaf 0x1D102)) (.node 0x921DFC3569 (.leaf 0x122A8) (.leaf 0x2C64))) (.node 0x9224669513 (.node 0x9223976EF2 (.leaf 0x111D7) (.leaf 0x2419)) (.node 0x92299FFB3D (.leaf 0x2705) (.leaf 0x120BE)))))
def nameTree_1132 : NameTree := .node 0x926079783A (.node 0x9258931B3F (.node 0x925296E549 (.node 0x924F27D4E9 (.leaf 0x1042E) (.leaf 0x10432)) (.node 0x92529E20F2 (.leaf 0x248B) (.leaf 0x2563))) (.node 0x9259E1A502 (.node 0x9259685D98 (.leaf 0x122BB) (.leaf 0xCD6)) (.node 0x925DE80B8F (.leaf 0x1BCA1) (.leaf 0x1D6DE)))) (.node 0x92660BA39D (.node 0x92634FCFBC (.node 0x9260D3F44C (.leaf 0x16B5B) (.leaf 0x21A7)) (.node 0x9263D9356F (.leaf 0x115C9) (.leaf 0x48B))) (.node 0x9268454EAA (.node 0x9266915D6B (.leaf 0xFB8C) (.leaf 0x247F)) (.node 0x92688F716B (.leaf 0x667) (.leaf 0x2487))))
def nameTree_1133 : NameTree := .node 0x924F27CEE9 (.node 0x923FE94BB5 (.node 0x92359AAF0D (.node 0x922EA3398B (.leaf 0x1E87) (.node 0x923437D25D (.leaf 0x1F0CA) (.leaf 0x1E8B))) (.node 0x923D77058F (.node 0x9237A2787A (.leaf 0x142) (.leaf 0x2614)) (.node 0x923E44195D (.leaf 0x2ACF) (.leaf 0x1E8F)))) (.node 0x924CDC19C1 (.node 0x924850605D (.node 0x9240A81824 (.leaf 0x1F837) (.leaf 0xE4)) (.node 0x9248810091 (.leaf 0x17C) (.leaf 0x1D833))) (.node 0x924F27C6E9 (.node 0x924E814B32 (.leaf 0x85E) (.leaf 0x10151)) (.node 0x924F27CAE9 (.leaf 0x10430) (.leaf 0x1042F))))) (nameTree_1132)
def nameTree_1134 : NameTree := .node 0x92B50D1659 (.node 0x92AE72EA87 (.node 0x92ACC9A9F0 (.node 0x92ACC9A1F0 (.leaf 0x824) (.leaf 0x103A0)) (.node 0x92ACC9B5F0 (.leaf 0x103A1) (.leaf 0x103A2))) (.node 0x92B1ACE805 (.node 0x92B13D7670 (.leaf 0x16B5E) (.leaf 0x1D02F)) (.node 0x92B35703C6 (.leaf 0xAB49) (.leaf 0x1D7EA)))) (.node 0x92B7091F99 (.node 0x92B708AB08 (.node 0x92B7066433 (.leaf 0x1D950) (.leaf 0xA97B)) (.node 0x92B708E7DD (.leaf 0xA971) (.leaf 0xA96C))) (.node 0x92B83331DE (.node 0x92B70A08BB (.leaf 0x115B) (.leaf 0x1121)) (.node 0x92CBCAFE90 (.leaf 0x1D1BC) (.leaf 0x2946))))
def nameTree_1135 : NameTree := .node 0x92A779E05D (.node 0x9283500CD3 (.node 0x926CA497E5 (.node 0x9268D93424 (.leaf 0x16A55) (.node 0x926AEBF499 (.leaf 0xEB) (.leaf 0x1F250))) (.node 0x928283DE6F (.node 0x92707B49AE (.leaf 0x263B) (.leaf 0x247E)) (.node 0x9282B7ABB1 (.leaf 0x33A8) (.leaf 0x1224B)))) (.node 0x928E3F1477 (.node 0x9288400777 (.node 0x9286FE0924 (.leaf 0xFC1) (.leaf 0x1E27)) (.node 0x928B92F83F (.leaf 0x1D7D3) (.leaf 0x122C1))) (.node 0x9296CBE7C0 (.node 0x92910A5024 (.leaf 0x1D7D2) (.leaf 0xEF)) (.node 0x92A7360AE8 (.leaf 0x1F6A4) (.leaf 0x3175))))) (nameTree_1134)
def nameTree_1136 : NameTree := .node 0x931705DE52 (.node 0x93099DA424 (.node 0x93033F32A6 (.node 0x93000F5AA9 (.leaf 0x1E97) (.leaf 0x1244E)) (.node 0x9306A57ABB (.leaf 0x2B89) (.leaf 0x228D))) (.node 0x9312921A5D (.node 0x9311851690 (.leaf 0xFC) (.leaf 0x1D9F)) (.node 0x9316FDD652 (.leaf 0x122C2) (.leaf 0x1481)))) (.node 0x93209C03D1 (.node 0x931DB63224 (.node 0x93170BE452 (.leaf 0x1479) (.leaf 0x147D)) (.node 0x931F3D3E90 (.leaf 0x1E85) (.leaf 0x1244A))) (.node 0x932FAC9FBC (.node 0x9327C27924 (.leaf 0xFBF) (.leaf 0x1E8D)) (.node 0x9330524834 (.leaf 0x1D08F) (.leaf 0x310))))
def nameTree_1137 : NameTree := .node 0x92FF915D24 (.node 0x92E92EE858 (.node 0x92D34A74AE (.node 0x92D0BDBCAB (.leaf 0xF6) (.node 0x92D3406AAE (.leaf 0xFF63) (.leaf 0xA506))) (.node 0x92DEE7608B (.node 0x92D5DB791C (.leaf 0xA577) (.leaf 0x3173)) (.node 0x92E1D8201F (.leaf 0x331A) (.leaf 0x3181)))) (.node 0x92EFA9DD77 (.node 0x92E9B11BC4 (.node 0x92E92EEE58 (.leaf 0x1130C) (.leaf 0x1130B)) (.node 0x92EE7E6340 (.leaf 0x120A8) (.leaf 0x102E8))) (.node 0x92F6084370 (.node 0x92F2823FEB (.leaf 0x2798) (.leaf 0x23B1)) (.node 0x92FB379F35 (.leaf 0x1013B) (.leaf 0x23F1))))) (nameTree_1136)
def nameTree_1138 : NameTree := .node 0x93400BBB5A (.node 0x934000C85A (.node 0x934000BC5A (.node 0x933FFDBB5A (.leaf 0xFF) (.node 0x933FFFBB5A (.leaf 0x431) (.leaf 0x434))) (.node 0x934000C35A (.node 0x934000C25A (.leaf 0x444) (.leaf 0x43B)) (.node 0x934000C45A (.leaf 0x43C) (.leaf 0x43D)))) (.node 0x934004C55A (.node 0x934003B75A (.node 0x934000C95A (.leaf 0x440) (.leaf 0x441)) (.node 0x934004BB5A (.leaf 0x445) (.leaf 0x435))) (.node 0x934006B75A (.node 0x934005BB5A (.leaf 0x451) (.leaf 0x458)) (.node 0x93400ACA5A (.leaf 0x43A) (.leaf 0x47F))))) (.node 0x934014BF5A (.node 0x934010C15A (.node 0x93400CB75A (.leaf 0x43F) (.node 0x93400FBB5A (.leaf 0x51B) (.leaf 0x442))) (.node 0x934012BB5A (.node 0x934011BB5A (.leaf 0x479) (.leaf 0x432)) (.node 0x934014B75A (.leaf 0x51D) (.leaf 0x44F)))) (.node 0x934594066E (.node 0x934014CB5A (.node 0x934014C45A (.leaf 0x457) (.leaf 0xA65F)) (.node 0x934015BB5A (.leaf 0x44E) (.leaf 0x437))) (.node 0x934AED996C (.node 0x934AC4A6E6 (.leaf 0xFB41) (.leaf 0x1647)) (.node 0x934E4AC404 (.leaf 0x27E) (.leaf 0x16828)))))
def nameTree_1139 : NameTree := .node 0x939ED2EDBD (.node 0x939930D16D (.node 0x938FDA7489 (.node 0x938FD63311 (.leaf 0x1F3B7) (.leaf 0x1DA67)) (.node 0x93952ED16D (.leaf 0x25EF) (.leaf 0xABAC))) (.node 0x939990E259 (.node 0x939990DE54 (.leaf 0xAB8F) (.leaf 0x3171)) (.node 0x939DA846C3 (.leaf 0x3178) (.leaf 0xFF03)))) (.node 0x93A237D96D (.node 0x93A237D16D (.node 0x939F23D86D (.leaf 0xFCCF) (.leaf 0xAB90)) (.node 0x93A237D56D (.leaf 0xAB96) (.leaf 0xAB97))) (.node 0x93A237E56D (.node 0x93A237DF6D (.leaf 0xAB98) (.leaf 0xAB99)) (.node 0x93A237E66D (.leaf 0xAB9A) (.leaf 0xAB9B))))
def nameTree_1140 : NameTree := .node 0x93845142D4 (.node 0x937E33FC6F (.node 0x936547F8E7 (.node 0x93614DA733 (.leaf 0x120C5) (.node 0x93622E8723 (.leaf 0xFDBE) (.leaf 0x1F018))) (.node 0x9377571FF4 (.node 0x9367508F45 (.leaf 0x207) (.leaf 0x6E0)) (.node 0x937B895195 (.leaf 0xFEDD) (.leaf 0x120B0)))) (.node 0x937E34106F (.node 0x937E34046F (.node 0x937E34006F (.leaf 0x11183) (.leaf 0x1118D)) (.node 0x937E340A6F (.leaf 0x11185) (.leaf 0x1118F))) (.node 0x938127FC94 (.node 0x93805EC7EC (.leaf 0x11187) (.leaf 0x10399)) (.node 0x9381416835 (.leaf 0x10B63) (.leaf 0x10540))))) (nameTree_1139)
def nameTree_1141 : NameTree := .node 0x93ABA0EF8D (.node 0x93A81E5B1E (.node 0x93A81E4F1E (.node 0x93A81E4B1E (.leaf 0x112B0) (.leaf 0x112B6)) (.node 0x93A81E551E (.leaf 0x112B2) (.leaf 0x112B8))) (.node 0x93AB99F88D (.node 0x93A8BA0726 (.leaf 0x112B4) (.leaf 0xAA8C)) (.node 0x93AB9DF88D (.leaf 0x10A0) (.leaf 0x10A4)))) (.node 0x93ABAFEF8D (.node 0x93ABA7F88D (.node 0x93ABA1F88D (.leaf 0x10C1) (.leaf 0x10A8)) (.node 0x93ABADF88D (.leaf 0x10AD) (.leaf 0x10B3))) (.node 0x93AC081F34 (.node 0x93ABB1F88D (.leaf 0x10C3) (.leaf 0x10C7)) (.node 0x93B0B191BA (.leaf 0x2CA) (.leaf 0x1F251))))
def nameTree_1142 : NameTree := .node 0x93A81E471E (.node 0x93A52EE66D (.node 0x93A52ED56D (.node 0x93A4C221B1 (.leaf 0x22FF) (.node 0x93A52ED16D (.leaf 0x1F38B) (.leaf 0xABAD))) (.node 0x93A52EDF6D (.node 0x93A52ED96D (.leaf 0xABAE) (.leaf 0xABAF)) (.node 0x93A52EE56D (.leaf 0xABB0) (.leaf 0xABB1)))) (.node 0x93A535DF6D (.node 0x93A535D56D (.node 0x93A535D16D (.leaf 0xABB2) (.leaf 0xABB3)) (.node 0x93A535D96D (.leaf 0xABB4) (.leaf 0xABB5))) (.node 0x93A535E66D (.node 0x93A535E56D (.leaf 0xABB6) (.leaf 0xABB7)) (.node 0x93A5BB85C4 (.leaf 0xABB8) (.leaf 0x1F73))))) (nameTree_1141)
def nameTree_1143 : NameTree := .node 0x93EE745050 (.node 0x93EC7F5050 (.node 0x93E86E5050 (.node 0x93E76E5050 (.leaf 0x16F38) (.leaf 0x16F28)) (.node 0x93EC6E5050 (.leaf 0x16F44) (.leaf 0x16F18))) (.node 0x93EE6D5050 (.node 0x93ED6E5050 (.leaf 0x16F17) (.leaf 0x16F05)) (.node 0x93EE6E5050 (.leaf 0x16F23) (.leaf 0x16F11)))) (.node 0x93F36E5050 (.node 0x93F0725050 (.node 0x93EE7F5050 (.leaf 0x16F14) (.leaf 0x16F2C)) (.node 0x93F16D5050 (.leaf 0x16F03) (.leaf 0x16F22))) (.node 0x93F4795050 (.node 0x93F3795050 (.leaf 0x16F33) (.leaf 0x16F34)) (.node 0x93F47A5050 (.leaf 0x16F37) (.leaf 0x16F0E))))
def nameTree_1144 : NameTree := .node 0x93E4805050 (.node 0x93C3B82AC8 (.node 0x93B5BA0726 (.node 0x93B3B90726 (.leaf 0xAA82) (.node 0x93B3CB0726 (.leaf 0xAA88) (.leaf 0xAA90))) (.node 0x93BDACB068 (.node 0x93B9BA0726 (.leaf 0xAA9E) (.leaf 0xAA96)) (.node 0x93BE482AC8 (.leaf 0x3299) (.leaf 0x1D6AC)))) (.node 0x93D9280EA9 (.node 0x93CFBD1E1C (.node 0x93C59FC637 (.leaf 0x1D6BC) (.leaf 0xE50)) (.node 0x93D3EAE606 (.leaf 0x10341) (.leaf 0x1D36F))) (.node 0x93E1BF87DF (.node 0x93DFDC77E5 (.leaf 0x1F62F) (.leaf 0x135)) (.node 0x93E46A5050 (.leaf 0x1D07F) (.leaf 0x16F0F))))) (nameTree_1143)
def nameTree_1145 : NameTree := .node 0x9416FDD652 (.node 0x93FCD40CD9 (.node 0x93FA6E5050 (.node 0x93F64E595D (.leaf 0x1E7A) (.node 0x93F66C5050 (.leaf 0x1F498) (.leaf 0x16F09))) (.node 0x93FA805050 (.node 0x93FA795050 (.leaf 0x16F35) (.leaf 0x16F3C)) (.node 0x93FCD30CD9 (.leaf 0x16F3D) (.leaf 0x1D727)))) (.node 0x93FF5961EC (.node 0x93FCDE00D9 (.node 0x93FCD600D9 (.leaf 0x1D728) (.leaf 0x1D72B)) (.node 0x93FDB10CEC (.leaf 0x1D729) (.leaf 0x1240A))) (.node 0x940757A71A (.node 0x94042A21DE (.leaf 0x12452) (.leaf 0x16B87)) (.node 0x94135D84EC (.leaf 0x1F67) (.leaf 0x12438))))) (.node 0x9432DCE8E9 (.node 0x941D6C2A38 (.node 0x941705DE52 (.leaf 0x14E9) (.node 0x94170BE452 (.leaf 0x14E1) (.leaf 0x14E5))) (.node 0x941FBFB518 (.node 0x941EE31C6D (.leaf 0x1E02A) (.leaf 0x100C4)) (.node 0x9428DD7828 (.leaf 0x2A44) (.leaf 0x22C1)))) (.node 0x943ABF1B32 (.node 0x94354F1B32 (.node 0x94350CF228 (.leaf 0x1BC74) (.leaf 0x22FA)) (.node 0x94380B8BAD (.leaf 0x1D720) (.leaf 0x1F927))) (.node 0x9440465619 (.node 0x943B38F580 (.leaf 0x1D730) (.leaf 0xAA50)) (.node 0x9440465E19 (.leaf 0x11201) (.leaf 0x11205)))))
def nameTree_1146 : NameTree := .node 0x945A3FA48A (.node 0x944A1683B4 (.node 0x9446F35FD7 (.node 0x94405E5619 (.leaf 0x11228) (.leaf 0x11225)) (.node 0x9448AF5DBF (.leaf 0xA8CF) (.leaf 0x1022))) (.node 0x9455267B1C (.node 0x945422CAB4 (.leaf 0x1EA1) (.leaf 0x1E05)) (.node 0x94552ED3B1 (.leaf 0x238A) (.leaf 0x1F539)))) (.node 0x945F823E7B (.node 0x945E3BDED1 (.node 0x945E0A2C3A (.leaf 0x11AE9) (.leaf 0x261B)) (.node 0x945F7E40D6 (.leaf 0x2A01) (.leaf 0x1F021))) (.node 0x94688253E3 (.node 0x94683B58B4 (.leaf 0x1F762) (.leaf 0x1E0D)) (.node 0x94698B54E8 (.leaf 0x2C86) (.leaf 0x2C84))))
def nameTree_1147 : NameTree := .node 0x94405B5619 (.node 0x9440505619 (.node 0x9440495619 (.node 0x9440475619 (.leaf 0x11207) (.node 0x9440485619 (.leaf 0x11221) (.leaf 0x1120E))) (.node 0x94404D5619 (.node 0x94404C5619 (.leaf 0x1121B) (.leaf 0x1120A)) (.node 0x94404F5619 (.leaf 0x1122A) (.leaf 0x11210)))) (.node 0x9440555619 (.node 0x9440525619 (.node 0x9440515619 (.leaf 0x11208) (.leaf 0x11227)) (.node 0x9440535619 (.leaf 0x11224) (.leaf 0x1121E))) (.node 0x9440585619 (.node 0x9440575619 (.leaf 0x1121F) (.leaf 0x11226)) (.node 0x9440595619 (.leaf 0x11229) (.leaf 0x11219))))) (nameTree_1146)
def nameTree_1148 : NameTree := .node 0x94A336170A (.node 0x949C068FEB (.node 0x94906C74B4 (.node 0x949005D31B (.leaf 0x10E62) (.leaf 0x1ABC)) (.node 0x949A78BBB4 (.leaf 0x1E25) (.leaf 0x1ECB))) (.node 0x94A324BEC9 (.node 0x94A066140B (.leaf 0x1F5C5) (.leaf 0x7AF)) (.node 0x94A330E396 (.leaf 0x2E03) (.leaf 0xFE16)))) (.node 0x94AE9149B4 (.node 0x94ABC3A51C (.node 0x94A69798D3 (.leaf 0x3267) (.leaf 0x1DA22)) (.node 0x94AE27C5C8 (.leaf 0x11A97) (.leaf 0x2929))) (.node 0x94C2A9D7B4 (.node 0x94B89D90B4 (.leaf 0x1E33) (.leaf 0x1E37)) (.node 0x94CAE3D755 (.leaf 0x1E43) (.leaf 0x29DE))))
def nameTree_1149 : NameTree := .node 0x948C27164B (.node 0x947DD9627D (.node 0x9472479FB4 (.node 0x9471825596 (.leaf 0x2CC0) (.node 0x94718A569B (.leaf 0x2C92) (.leaf 0x2C96))) (.node 0x947A32D4D6 (.node 0x9479ED8DD6 (.leaf 0x1EB9) (.leaf 0x1F45E)) (.node 0x947D415E35 (.leaf 0x2642) (.leaf 0x10561)))) (.node 0x94825072EB (.node 0x94811AB494 (.node 0x947EE6DF8E (.leaf 0x2AD5) (.leaf 0x2D64)) (.node 0x9481241594 (.leaf 0x10B6B) (.leaf 0x10B6E))) (.node 0x948683037E (.node 0x948293F9A0 (.leaf 0x2640) (.leaf 0x1F56)) (.node 0x948B3F5E35 (.leaf 0x2B66) (.leaf 0x1053A))))) (nameTree_1148)
def nameTree_1150 : NameTree := .node 0x9516FDD652 (.node 0x950A12128C (.node 0x94FEF381B4 (.node 0x94F4E73AB4 (.leaf 0xA7FF) (.leaf 0x1E5B)) (.node 0x9508FFC8B4 (.leaf 0x1E63) (.leaf 0x1E6D))) (.node 0x95130C0FB4 (.node 0x950E7571DD (.leaf 0x1207F) (.leaf 0x2940)) (.node 0x9516252A57 (.leaf 0x1EE5) (.leaf 0x109E8)))) (.node 0x951D1856B4 (.node 0x95170BE452 (.node 0x951705DE52 (.leaf 0x14B9) (.leaf 0x14B1)) (.node 0x951A812909 (.leaf 0x14B5) (.leaf 0x111D3))) (.node 0x9520D96CCF (.node 0x951E3F45C0 (.leaf 0x1E7F) (.leaf 0x1D843)) (.node 0x9527249DB4 (.leaf 0x22EA) (.leaf 0x1E89))))
def nameTree_1151 : NameTree := .node 0x94E9B1E37F (.node 0x94D3437AAE (.node 0x94D34366AE (.node 0x94D31B48ED (.leaf 0x1E47) (.node 0x94D3406AAE (.leaf 0x2CC9) (.leaf 0xA510))) (.node 0x94D3436EAE (.node 0x94D3436AAE (.leaf 0xA55D) (.leaf 0xA5F6)) (.node 0x94D34374AE (.leaf 0xA536) (.leaf 0xA5CE)))) (.node 0x94D7E23EFB (.node 0x94D6790642 (.node 0x94D34A74AE (.leaf 0xA5A7) (.leaf 0xA581)) (.node 0x94D6C265B4 (.leaf 0x23F8) (.leaf 0x1ECD))) (.node 0x94E430874E (.node 0x94E2489E69 (.leaf 0x23) (.leaf 0x1F9DC)) (.node 0x94E61BC1C4 (.leaf 0x1D942) (.leaf 0x1D330))))) (nameTree_1150)
def nameTree_1152 : NameTree := .node 0x9585270BB5 (.node 0x957DD0E77F (.node 0x957D3A6635 (.node 0x957B17067F (.leaf 0x12043) (.leaf 0x4B4)) (.node 0x957D8CF86E (.leaf 0x10535) (.leaf 0xFB3A))) (.node 0x95812A2032 (.node 0x957F85EDFC (.leaf 0x2036) (.leaf 0x1203F)) (.node 0x9584316635 (.leaf 0x10E67) (.leaf 0x10537)))) (.node 0x958D98CFFC (.node 0x9589310514 (.node 0x958759CAC5 (.leaf 0x1E917) (.leaf 0x4F7)) (.node 0x958B90B7DE (.leaf 0x21A0) (.leaf 0x121F1))) (.node 0x9596417E23 (.node 0x95936C6CAD (.leaf 0x12358) (.leaf 0x309A)) (.node 0x959658BFD6 (.leaf 0x157) (.leaf 0x1FFA))))
def nameTree_1153 : NameTree := .node 0x9579972EDE (.node 0x9564454601 (.node 0x953B3D2BB4 (.node 0x952B30E3C9 (.leaf 0x27A3) (.node 0x9532F97534 (.leaf 0x257E) (.leaf 0xCCD))) (.node 0x955A70E15C (.node 0x95454972B4 (.leaf 0x1EF5) (.leaf 0x1E93)) (.node 0x95607F167E (.leaf 0x4DFC) (.leaf 0x1F83C)))) (.node 0x9575EA12C3 (.node 0x9568A0D13A (.node 0x95689FE4B2 (.leaf 0x663) (.leaf 0x2A3)) (.node 0x956E06F08E (.leaf 0x2AB) (.leaf 0x4A4))) (.node 0x9576BDE451 (.node 0x9575EA1AC3 (.leaf 0x1887) (.leaf 0x1888)) (.node 0x9577BDDE33 (.leaf 0x1F74) (.leaf 0x1F21))))) (nameTree_1152)
def nameTree_1154 : NameTree := .node 0x95C43B8D82 (.node 0x95C2668189 (.node 0x95BE962029 (.node 0x95BA9B0D29 (.leaf 0x220F) (.leaf 0x111D1)) (.node 0x95BFA41729 (.leaf 0x111D6) (.leaf 0x111D2))) (.node 0x95C43A8982 (.node 0x95C2EB9981 (.leaf 0x121CA) (.leaf 0x1D82D)) (.node 0x95C43A9182 (.leaf 0x33C2) (.leaf 0x3373)))) (.node 0x95C43C8B82 (.node 0x95C43C8082 (.node 0x95C43C7F82 (.leaf 0x33C3) (.leaf 0x33C4)) (.node 0x95C43C8982 (.leaf 0x33C5) (.leaf 0x339D))) (.node 0x95C43D7E82 (.node 0x95C43D7D82 (.leaf 0x33C7) (.leaf 0x3372)) (.node 0x95C43D8682 (.leaf 0x33C8) (.leaf 0x1F190))))
def nameTree_1155 : NameTree := .node 0x95B897A3AC (.node 0x959FEB68C0 (.node 0x959AF8DB4A (.node 0x95987C13FC (.leaf 0x1F69) (.node 0x959A838C1C (.leaf 0x2372) (.leaf 0x1F35D))) (.node 0x959E16D35F (.node 0x959B56D35F (.leaf 0xFB8) (.leaf 0x314A)) (.node 0x959FCED35F (.leaf 0x314B) (.leaf 0x314D)))) (.node 0x95AD0F3790 (.node 0x95A8333839 (.node 0x95A12ED35F (.leaf 0x1F1A2) (.leaf 0x314C)) (.node 0x95AB23C812 (.leaf 0xA9B6) (.leaf 0x3D7))) (.node 0x95AE42401D (.node 0x95AD342384 (.leaf 0x263E) (.leaf 0x25F)) (.node 0x95AF10EBED (.leaf 0x1DA35) (.leaf 0x2746))))) (nameTree_1154)
def nameTree_1156 : NameTree := .node 0x95C4459482 (.node 0x95C4449282 (.node 0x95C4448982 (.node 0x95C4448882 (.leaf 0x33CD) (.leaf 0x3398)) (.node 0x95C4449082 (.leaf 0x339E) (.leaf 0x33CF))) (.node 0x95C4458982 (.node 0x95C4449382 (.leaf 0x33B8) (.leaf 0x33BE)) (.node 0x95C4458A82 (.leaf 0x33D0) (.leaf 0x33D1)))) (.node 0x95C4468882 (.node 0x95C4467E82 (.node 0x95C4467D82 (.leaf 0x33D3) (.leaf 0x3383)) (.node 0x95C4468382 (.leaf 0x3386) (.leaf 0x338E))) (.node 0x95C4468F82 (.node 0x95C4468982 (.leaf 0x3396) (.leaf 0x339C)) (.node 0x95C4469282 (.leaf 0x33B3) (.leaf 0x33B7))))
def nameTree_1157 : NameTree := .node 0x95C4448782 (.node 0x95C4418382 (.node 0x95C43F8982 (.node 0x95C43D8982 (.leaf 0x3397) (.node 0x95C43E9282 (.leaf 0x3377) (.leaf 0x32CE))) (.node 0x95C4409582 (.node 0x95C4407E82 (.leaf 0x3399) (.leaf 0x3387)) (.node 0x95C4417D82 (.leaf 0x33C9) (.leaf 0x33CA)))) (.node 0x95C4429182 (.node 0x95C4419682 (.node 0x95C4418C82 (.leaf 0x32CC) (.leaf 0x33CB)) (.node 0x95C4428A82 (.leaf 0x3390) (.leaf 0x33CC))) (.node 0x95C4447E82 (.node 0x95C4447D82 (.leaf 0x337A) (.leaf 0x3384)) (.node 0x95C4448382 (.leaf 0x3385) (.leaf 0x338F))))) (nameTree_1156)
def nameTree_1158 : NameTree := .node 0x95D2A4F790 (.node 0x95C4507E82 (.node 0x95C44C8E82 (.node 0x95C4499382 (.leaf 0x33B4) (.leaf 0x33BA)) (.node 0x95C44C9282 (.leaf 0x33DB) (.leaf 0x33DC))) (.node 0x95CA8E16C5 (.node 0x95C907C1DC (.leaf 0x33DD) (.leaf 0xFCC8)) (.node 0x95D04CECBA (.leaf 0x25BA) (.leaf 0x25EE)))) (.node 0x95DF386D39 (.node 0x95DBB69BB1 (.node 0x95D67B5D09 (.leaf 0x239F) (.leaf 0x10B7A)) (.node 0x95DDEC56CF (.leaf 0x1F662) (.leaf 0x2216))) (.node 0x95E61815FE (.node 0x95E14C39FB (.leaf 0xFC10) (.leaf 0x2116)) (.node 0x95E8FFBD8C (.leaf 0x1245B) (.leaf 0xA66B))))
def nameTree_1159 : NameTree := .node 0x95C4499282 (.node 0x95C4489282 (.node 0x95C4478982 (.node 0x95C4477D82 (.leaf 0x33BD) (.node 0x95C4478282 (.leaf 0x3381) (.leaf 0x338B))) (.node 0x95C4479282 (.node 0x95C4478F82 (.leaf 0x339A) (.leaf 0x33B1)) (.node 0x95C4479382 (.leaf 0x33B5) (.leaf 0x33BB)))) (.node 0x95C4498482 (.node 0x95C4497F82 (.node 0x95C4497D82 (.leaf 0x3375) (.leaf 0x33A9)) (.node 0x95C4498282 (.leaf 0x3376) (.leaf 0x338A))) (.node 0x95C4498E82 (.node 0x95C4498982 (.leaf 0x33D7) (.leaf 0x33D8)) (.node 0x95C4498F82 (.leaf 0x33DA) (.leaf 0x33B0))))) (nameTree_1158)
def nameTree_1160 : NameTree := .node 0x91DEF5ABEE (.node 0x8F02393483 (.node 0x8DE5A795B8 (.node 0x8D519CA7EF (.node 0x8D18F479E5 (nameTree_1103) (nameTree_1105)) (.node 0x8DA0480188 (nameTree_1107) (nameTree_1109))) (.node 0x8E5F46EC87 (.node 0x8DE6BCAEB8 (nameTree_1110) (nameTree_1112)) (.node 0x8EB2085EF1 (nameTree_1114) (nameTree_1116)))) (.node 0x90FC0279A4 (.node 0x9004A4ED53 (.node 0x8F64DBF82A (nameTree_1117) (nameTree_1119)) (.node 0x908111EEAF (nameTree_1121) (nameTree_1123))) (.node 0x91715ED300 (.node 0x913AE4705D (nameTree_1124) (nameTree_1126)) (.node 0x91BAB9683F (nameTree_1128) (nameTree_1130))))) (.node 0x93F4EEBE41 (.node 0x9331CEC024 (.node 0x9268CC2422 (.node 0x922A2B8B5D (nameTree_1131) (nameTree_1133)) (.node 0x92CD53FA24 (nameTree_1135) (nameTree_1137))) (.node 0x93A449C327 (.node 0x9360E04B29 (nameTree_1138) (nameTree_1140)) (.node 0x93B0BA0726 (nameTree_1142) (nameTree_1144)))) (.node 0x952A019D2F (.node 0x94698E60FC (.node 0x9440466A19 (nameTree_1145) (nameTree_1147)) (.node 0x94CCB61EB4 (nameTree_1149) (nameTree_1151))) (.node 0x95C43D8882 (.node 0x959758B9B8 (nameTree_1153) (nameTree_1155)) (.node 0x95C4469382 (nameTree_1157) (nameTree_1159)))))
def nameTree_1161 : NameTree := .node 0x9608877273 (.node 0x9600897273 (.node 0x95F9877273 (.node 0x95EE2BD2A6 (.leaf 0xA669) (.node 0x95F8877273 (.leaf 0x2A69) (.leaf 0x1129F))) (.node 0x95FA877273 (.node 0x95FA837273 (.leaf 0x1128B) (.leaf 0x11292)) (.node 0x95FD877273 (.leaf 0x11299) (.leaf 0x11288)))) (.node 0x96048D7273 (.node 0x9603E04176 (.node 0x9601877273 (.leaf 0x1128D) (.leaf 0x11285)) (.node 0x96045FB682 (.leaf 0xFD55) (.leaf 0x204))) (.node 0x9606877273 (.node 0x9604987273 (.leaf 0x11295) (.leaf 0x1128F)) (.node 0x96075E77EC (.leaf 0x1129C) (.leaf 0x12409))))) (.node 0x9613AB9B0D (.node 0x960A937273 (.node 0x9608917273 (.leaf 0x112A8) (.node 0x960A877273 (.leaf 0x112A7) (.leaf 0x11297))) (.node 0x960CEC7BE0 (.node 0x960B1DBF7E (.leaf 0x11290) (.leaf 0x300A)) (.node 0x960F8432F0 (.leaf 0x255A) (.leaf 0x111D8)))) (.node 0x96196A3E38 (.node 0x9613ABA30D (.node 0x9613AB9F0D (.leaf 0x10C01) (.leaf 0x10C05)) (.node 0x9616FDD652 (.leaf 0x10C04) (.leaf 0x14CE))) (.node 0x961E379466 (.node 0x961AA0307B (.leaf 0x1E018) (.leaf 0x2639)) (.node 0x96247CCE35 (.leaf 0x273E) (.leaf 0x2A32)))))
def nameTree_1162 : NameTree := .node 0x966C1FEEF0 (.node 0x9659484FE8 (.node 0x96570483F3 (.node 0x9655CF79EA (.leaf 0x2B33) (.leaf 0x1E1D)) (.node 0x965899A8E8 (.leaf 0x2E04) (.leaf 0x12148))) (.node 0x9663DD12C0 (.node 0x965A45C8DA (.leaf 0x668) (.leaf 0x1245A)) (.node 0x966643396C (.leaf 0x2C76) (.leaf 0x1D9D8)))) (.node 0x96883057B9 (.node 0x9686940D3F (.node 0x9678BF46CB (.leaf 0xFE70) (.leaf 0x1F31B)) (.node 0x9688284FB9 (.leaf 0x122D2) (.leaf 0x157A))) (.node 0x968CBD1661 (.node 0x9688365DB9 (.leaf 0x1576) (.leaf 0x1578)) (.node 0x968CBD1C61 (.leaf 0x11608) (.leaf 0x11606))))
def nameTree_1163 : NameTree := .node 0x9654FF8167 (.node 0x963C9D3A01 (.node 0x96319AF0BC (.node 0x96319AE2A3 (.leaf 0xFC62) (.node 0x96319AF009 (.leaf 0xA963) (.leaf 0xA960))) (.node 0x9635FD0EBA (.node 0x96319AF40E (.leaf 0x115E) (.leaf 0xA961)) (.node 0x96392B8989 (.leaf 0x122CE) (.leaf 0x2394)))) (.node 0x964969C9F4 (.node 0x96415B9949 (.node 0x963FA5FE5D (.leaf 0xB76) (.leaf 0x1D9E1)) (.node 0x964160172F (.leaf 0x1054F) (.leaf 0x1D853))) (.node 0x96507812F5 (.node 0x9649B8955A (.leaf 0xD79) (.leaf 0xA7FD)) (.node 0x9654741AA4 (.leaf 0x2A94) (.leaf 0x22A1))))) (nameTree_1162)
def nameTree_1164 : NameTree := .node 0x96D680644C (.node 0x96C5F0F779 (.node 0x96C11604A9 (.node 0x96C115FEA9 (.leaf 0x9C7) (.leaf 0x9BF)) (.node 0x96C1160AA9 (.leaf 0x9CB) (.leaf 0x9C1))) (.node 0x96CBAE58C5 (.node 0x96CAD4E40F (.leaf 0xFD75) (.leaf 0x32C9)) (.node 0x96CFEADD5D (.leaf 0x1D9BB) (.leaf 0x1D36B)))) (.node 0x96F3D85F3D (.node 0x96E6E867A8 (.node 0x96DE060B40 (.leaf 0x48D) (.leaf 0x148A)) (.node 0x96F3D4553D (.leaf 0x252A) (.leaf 0x3159))) (.node 0x96F40E0B40 (.node 0x96F4060340 (.leaf 0x315D) (.leaf 0x149E)) (.node 0x96F4141140 (.leaf 0x1496) (.leaf 0x149A))))
def nameTree_1165 : NameTree := .node 0x96C115FAA9 (.node 0x96A1DC3537 (.node 0x96A1D63537 (.node 0x9697019BA1 (.leaf 0x1F5CC) (.node 0x969ACC69A9 (.leaf 0xFEE6) (.leaf 0x1F320))) (.node 0x96A1DB2537 (.node 0x96A1DB2137 (.leaf 0x17AD) (.leaf 0x17AF)) (.node 0x96A1DB3137 (.leaf 0x17A5) (.leaf 0x17A7)))) (.node 0x96B239A63E (.node 0x96ABB5E6E2 (.node 0x96A2A3B08E (.leaf 0x17AB) (.leaf 0x1D047)) (.node 0x96AEDB2599 (.leaf 0x1D835) (.leaf 0x1F378))) (.node 0x96BAF41C97 (.node 0x96B3049C8C (.leaf 0x1089A) (.leaf 0x21D8)) (.node 0x96C0836DA5 (.leaf 0x44A) (.leaf 0x1F004))))) (nameTree_1164)
def nameTree_1166 : NameTree := .node 0x97480FF6A9 (.node 0x97335BD0D9 (.node 0x973283F3D0 (.node 0x97323535D6 (.leaf 0x1444B) (.leaf 0x20A5)) (.node 0x97335AD0D9 (.leaf 0xFC12) (.leaf 0x1446B))) (.node 0x974043A9D7 (.node 0x973A0976B6 (.leaf 0x1446D) (.leaf 0xFE73)) (.node 0x9744F97962 (.leaf 0xA8F7) (.leaf 0x1F87C)))) (.node 0x97532D1B16 (.node 0x97512C318C (.node 0x974A3CAD91 (.leaf 0x12149) (.leaf 0x3002)) (.node 0x97522A248C (.leaf 0xA6F4) (.leaf 0xA6F5))) (.node 0x975C27C41A (.node 0x975644E404 (.leaf 0x2F3D) (.leaf 0x1D9A2)) (.node 0x976B3388BD (.leaf 0xFE94) (.leaf 0x17C8))))
def nameTree_1167 : NameTree := .node 0x973059D2D9 (.node 0x972D5CD0D9 (.node 0x9724F7F4B8 (.node 0x96F5D85F3D (.leaf 0x3152) (.node 0x96FD389358 (.leaf 0x3155) (.leaf 0x1F59E))) (.node 0x972B53D0D9 (.node 0x97276FE558 (.leaf 0x22E7) (.leaf 0x1D0B1)) (.node 0x972C59D0D9 (.leaf 0x1440A) (.leaf 0x1441B)))) (.node 0x972E59D1D9 (.node 0x972E58D0D9 (.node 0x972E54D0D9 (.leaf 0x14429) (.leaf 0x1442C)) (.node 0x972E59D0D9 (.leaf 0x14431) (.leaf 0x14433))) (.node 0x973059D0D9 (.node 0x972E602E38 (.leaf 0x14434) (.leaf 0x1E009)) (.node 0x973059D1D9 (.leaf 0x14449) (.leaf 0x1444A))))) (nameTree_1166)
def nameTree_1168 : NameTree := .node 0x97A3B880F7 (.node 0x9793F2288C (.node 0x977CE47D65 (.node 0x97734B06AD (.leaf 0x2347) (.node 0x977CE47165 (.leaf 0xE007C) (.leaf 0x1752))) (.node 0x978989FAB0 (.node 0x977CF7DB78 (.leaf 0x1753) (.leaf 0x1F6F0)) (.node 0x978F21D8B1 (.leaf 0x26E9) (.leaf 0x21FB)))) (.node 0x979A260EEE (.node 0x9798859F5F (.node 0x97962A87CC (.leaf 0x12496) (.leaf 0x11BE)) (.node 0x9798EA87CC (.leaf 0x69C) (.leaf 0x11BF))) (.node 0x979C0287CC (.node 0x979AA287CC (.leaf 0x10460) (.leaf 0x11C1)) (.node 0x97A2E25F19 (.leaf 0x11C0) (.leaf 0x609))))) (.node 0x97BE6A6AF1 (.node 0x97BDB38E14 (.node 0x97A83CA63E (.leaf 0x1D159) (.node 0x97B80D3382 (.leaf 0x1089B) (.leaf 0x1D718))) (.node 0x97BDB39614 (.node 0x97BDB39214 (.leaf 0xD7C5) (.leaf 0xD7C6)) (.node 0x97BDB3A214 (.leaf 0x11A1) (.leaf 0x11A0)))) (.node 0x97C987EBA5 (.node 0x97C4EDE744 (.node 0x97C194D15E (.leaf 0x1D179) (.leaf 0x219)) (.node 0x97C8D33935 (.leaf 0x1D370) (.leaf 0xFE34))) (.node 0x97CBC5CECD (.node 0x97CB8A8DC0 (.leaf 0x94E) (.leaf 0x11357)) (.node 0x97CD406AAE (.leaf 0xA716) (.leaf 0xA50B)))))
def nameTree_1169 : NameTree := .node 0x980EA28765 (.node 0x9805BA742F (.node 0x9803AE7F65 (.node 0x9801A28765 (.leaf 0x1552) (.leaf 0x1D76C)) (.node 0x98043829DE (.leaf 0x1D75C) (.leaf 0x16B85))) (.node 0x98088BA95C (.node 0x98088977E4 (.leaf 0x1F38A) (.leaf 0x25D7)) (.node 0x980E301928 (.leaf 0x22AE) (.leaf 0x2EED)))) (.node 0x9810A28D65 (.node 0x980F2A21DE (.node 0x980EAD8765 (.leaf 0x1D76B) (.leaf 0x1D76D)) (.node 0x980F4021DE (.leaf 0x16B86) (.leaf 0x16B8D))) (.node 0x98129B9365 (.node 0x98122C13D1 (.leaf 0x1D766) (.leaf 0x16AE4)) (.node 0x981419D055 (.leaf 0x1D769) (.leaf 0x1D05A))))
def nameTree_1170 : NameTree := .node 0x97F8F164DD (.node 0x97E167067A (.node 0x97CF5FBEA0 (.node 0x97CD4A73AE (.leaf 0xA5F0) (.node 0x97CD4A74AE (.leaf 0xA5C8) (.leaf 0xA57C))) (.node 0x97D53C8B1F (.node 0x97D42C8A1F (.leaf 0x1F770) (.leaf 0x10892)) (.node 0x97D7B9CDC7 (.leaf 0x10894) (.leaf 0x22D)))) (.node 0x97F2A99874 (.node 0x97E505E4F8 (.node 0x97E2475999 (.leaf 0x1D110) (.leaf 0x329F)) (.node 0x97EB1B463C (.leaf 0x2109) (.leaf 0x2399))) (.node 0x97F6B25712 (.node 0x97F40EADD3 (.leaf 0x1F731) (.leaf 0x2BB)) (.node 0x97F8F15EDD (.leaf 0x268D) (.leaf 0x14EC))))) (nameTree_1169)
def nameTree_1171 : NameTree := .node 0x982ECDBBA1 (.node 0x982B58D0D9 (.node 0x982B53D0D9 (.node 0x982A5AD2D9 (.leaf 0x14480) (.leaf 0x14481)) (.node 0x982B53D1D9 (.leaf 0x14485) (.leaf 0x14486))) (.node 0x982C830123 (.node 0x982C58D0D9 (.leaf 0x1448C) (.leaf 0x14497)) (.node 0x982D58D0D9 (.leaf 0x102F7) (.leaf 0x144A2)))) (.node 0x983ECE251B (.node 0x983BBB9AB9 (.node 0x9837289D62 (.leaf 0x1F6F1) (.leaf 0xA9BC)) (.node 0x983E36D9F3 (.leaf 0x19F0) (.leaf 0x26BA))) (.node 0x9850F16274 (.node 0x98435D60DA (.leaf 0x8B6) (.leaf 0x2BB2)) (.node 0x985148EF49 (.leaf 0x31B3) (.leaf 0xFC78))))
def nameTree_1172 : NameTree := .node 0x982A5AD1D9 (.node 0x982A54D0D9 (.node 0x98181CD813 (.node 0x981705DE52 (.leaf 0x1447) (.node 0x98170BE452 (.leaf 0x143F) (.leaf 0x1443))) (.node 0x982A0BCEC8 (.node 0x98213B7C2D (.leaf 0x1F914) (.leaf 0x1F3C7)) (.node 0x982A53D0D9 (.leaf 0x1D8E6) (.leaf 0x14470)))) (.node 0x982A57D2D9 (.node 0x982A57D0D9 (.node 0x982A55D0D9 (.leaf 0x14472) (.leaf 0x14474)) (.node 0x982A57D1D9 (.leaf 0x14477) (.leaf 0x14478))) (.node 0x982A58D1D9 (.node 0x982A58D0D9 (.leaf 0x14479) (.leaf 0x1447B)) (.node 0x982A5AD0D9 (.leaf 0x1447C) (.leaf 0x1447F))))) (nameTree_1171)
def nameTree_1173 : NameTree := .node 0x9862925082 (.node 0x98628D5082 (.node 0x98628B5082 (.node 0x98628A5082 (.leaf 0x1B95) (.leaf 0x1B8B)) (.node 0x98628C5082 (.leaf 0x1B9B) (.leaf 0x1B9E))) (.node 0x9862905082 (.node 0x98628F5082 (.leaf 0x1B92) (.leaf 0x1B97)) (.node 0x9862915082 (.leaf 0x1B9D) (.leaf 0x1B9F)))) (.node 0x98681607D9 (.node 0x9864836983 (.node 0x9862935082 (.leaf 0x1B9A) (.leaf 0x1B90)) (.node 0x9864DE7E82 (.leaf 0x274F) (.leaf 0x17F))) (.node 0x986A99D377 (.node 0x986A30D053 (.leaf 0x1E029) (.leaf 0xFE68)) (.node 0x986A9CCD77 (.leaf 0x1BC68) (.leaf 0x1BC12))))
def nameTree_1174 : NameTree := .node 0x9862895082 (.node 0x98627F5082 (.node 0x98627B5082 (.node 0x9860AB6F7F (.leaf 0xFD77) (.node 0x98627A5482 (.leaf 0xA9CF) (.leaf 0x1B86))) (.node 0x98627D5082 (.node 0x98627C5082 (.leaf 0x1B98) (.leaf 0x1B8E)) (.node 0x98627E6482 (.leaf 0x1B93) (.leaf 0x1B89)))) (.node 0x9862845082 (.node 0x9862815082 (.node 0x9862805082 (.leaf 0x1B96) (.leaf 0x1B8C)) (.node 0x9862835082 (.leaf 0x1BA0) (.leaf 0x1B8F))) (.node 0x9862865082 (.node 0x9862855082 (.leaf 0x1B8A) (.leaf 0x1B9C)) (.node 0x9862875082 (.leaf 0x1B99) (.leaf 0x1B94))))) (nameTree_1173)
def nameTree_1175 : NameTree := .node 0x987EAC6DE2 (.node 0x986FF116EA (.node 0x986AA7D377 (.node 0x986A9DCD77 (.leaf 0x1BC4E) (.node 0x986A9DD377 (.leaf 0x1BC4C) (.leaf 0x1BC67))) (.node 0x986BE21B9A (.node 0x986AA7DC77 (.leaf 0x1BC69) (.leaf 0x1BC42)) (.node 0x986D7DB00F (.leaf 0xFD7C) (.leaf 0x1C86)))) (.node 0x987A868220 (.node 0x987A867A20 (.node 0x9873FAF337 (.leaf 0x1D0C6) (.leaf 0x1F49C)) (.node 0x987A867E20 (.leaf 0x10300) (.leaf 0x10304))) (.node 0x987A868E20 (.node 0x987A868820 (.leaf 0x10309) (.leaf 0x1030F)) (.node 0x987C45DE7C (.leaf 0x10316) (.leaf 0x2410))))) (.node 0x98933D226B (.node 0x98933D17B3 (.node 0x98800CAFAD (.leaf 0x1D8C4) (.node 0x98933D1100 (.leaf 0x2B98) (.leaf 0x3268))) (.node 0x98933D1F19 (.node 0x98933D1E66 (.leaf 0x326D) (.leaf 0x3264)) (.node 0x98933D1FBD (.leaf 0x3263) (.leaf 0x3261)))) (.node 0x98A6119A00 (.node 0x98A1277629 (.node 0x9893AC49DD (.leaf 0x3265) (.leaf 0x1D9AB)) (.node 0x98A5239E00 (.leaf 0x2CD7) (.leaf 0x12502))) (.node 0x98AC43AEC1 (.node 0x98AB32AC3E (.leaf 0x12503) (.leaf 0x1089D)) (.node 0x98AF258900 (.leaf 0x236F) (.leaf 0x12505)))))
def nameTree_1176 : NameTree := .node 0x99055A6116 (.node 0x9900F62900 (.node 0x98F228E267 (.node 0x98DB014322 (.leaf 0xFD3C) (.leaf 0x1D321)) (.node 0x98FF5359AA (.leaf 0x1248D) (.leaf 0x1D08C))) (.node 0x990343C786 (.node 0x990113709A (.leaf 0x1250E) (.leaf 0x60F)) (.node 0x9903B82036 (.leaf 0x22E0) (.leaf 0x11161)))) (.node 0x990DC6D4C0 (.node 0x9909DE100E (.node 0x9905E83000 (.leaf 0x10851) (.leaf 0x12510)) (.node 0x990C378080 (.leaf 0x1D737) (.leaf 0x2C31))) (.node 0x9915633838 (.node 0x9912DCB5FC (.leaf 0x1D9B8) (.leaf 0x6E4)) (.node 0x99190A149B (.leaf 0x1E00D) (.leaf 0x102FB))))
def nameTree_1177 : NameTree := .node 0x98DACE3F11 (.node 0x98BAB6A7BA (.node 0x98B7FA0108 (.node 0x98B49C40E5 (.leaf 0x1F799) (.node 0x98B4AEDA95 (.leaf 0x2AFE) (.leaf 0xA7A0))) (.node 0x98B87D3ED1 (.node 0x98B811A800 (.leaf 0x1F625) (.leaf 0x12507)) (.node 0x98B87D44D1 (.leaf 0x11C08) (.leaf 0x11C06)))) (.node 0x98CC1570E4 (.node 0x98C837208B (.node 0x98C52F857A (.leaf 0x3246) (.leaf 0x1D19A)) (.node 0x98C8547FFB (.leaf 0x294A) (.leaf 0x20EC))) (.node 0x98D85CCAF3 (.node 0x98D4A95296 (.leaf 0x8DE) (.leaf 0x2351)) (.node 0x98D86A453E (.leaf 0x2A6E) (.leaf 0x11F2))))) (nameTree_1176)
def nameTree_1178 : NameTree := .node 0x993317ADE6 (.node 0x992F2A9148 (.node 0x992C5AD0D9 (.node 0x992B59D0D9 (.leaf 0x144F7) (.leaf 0x144F9)) (.node 0x992D292EC8 (.leaf 0x14505) (.leaf 0x3262))) (.node 0x99325CD0D9 (.node 0x99305AD0D9 (.leaf 0xF3F) (.leaf 0x1452E)) (.node 0x993317A5E6 (.leaf 0x14545) (.leaf 0x986)))) (.node 0x99331AA5E6 (.node 0x993318A5E6 (.node 0x993317B9E6 (.leaf 0x990) (.leaf 0x994)) (.node 0x993319A5E6 (.leaf 0x9AC) (.leaf 0x99A))) (.node 0x99331EA5E6 (.node 0x99331DA5E6 (.leaf 0x9A6) (.leaf 0x997)) (.node 0x99331FADE6 (.leaf 0x9B9) (.leaf 0x988))))
def nameTree_1179 : NameTree := .node 0x992B58D0D9 (.node 0x9921ED3DDD (.node 0x9921ED39DD (.node 0x992136DD47 (.leaf 0x10846) (.node 0x99213DA8BF (.leaf 0x1E8D2) (.leaf 0x29C1))) (.node 0x9921ED3BDD (.node 0x9921ED3ADD (.leaf 0x1970) (.leaf 0x1971)) (.node 0x9921ED3CDD (.leaf 0x1972) (.leaf 0x1973)))) (.node 0x992A55D0D9 (.node 0x9926C76CE7 (.node 0x992439D6F6 (.leaf 0x1974) (.leaf 0x2AAD)) (.node 0x9929BC6D92 (.leaf 0x2A9) (.leaf 0x2C1B))) (.node 0x992A5AD0D9 (.node 0x992A55D1D9 (.leaf 0x144E6) (.leaf 0x144E7)) (.node 0x992A5CD0D9 (.leaf 0x144ED) (.leaf 0x144F0))))) (nameTree_1178)
def nameTree_1180 : NameTree := .node 0x99626618CD (.node 0x9950C3FD7C (.node 0x994D9354F9 (.node 0x9947F6A061 (.leaf 0x1F34D) (.leaf 0x1245D)) (.node 0x9950BA41A8 (.leaf 0x173) (.leaf 0x1D129))) (.node 0x995BF14285 (.node 0x9955F994A5 (.leaf 0x21B2) (.leaf 0x1C23)) (.node 0x995FC1CD8D (.leaf 0xFB62) (.leaf 0xB4D)))) (.node 0x9968320FCF (.node 0x9968320DCF (.node 0x9968320CCF (.leaf 0x7AB) (.leaf 0x18800)) (.node 0x9968320ECF (.leaf 0x18801) (.leaf 0x18802))) (.node 0x99683211CF (.node 0x99683210CF (.leaf 0x18803) (.leaf 0x18804)) (.node 0x99683212CF (.leaf 0x18805) (.leaf 0x18806))))
def nameTree_1181 : NameTree := .node 0x9939E5D764 (.node 0x993329A5E6 (.node 0x993323A5E6 (.node 0x993321A5E6 (.leaf 0x99C) (.node 0x993322A5E6 (.leaf 0x995) (.leaf 0x9B2))) (.node 0x993326A5E6 (.node 0x993324A5E6 (.leaf 0x9AE) (.leaf 0x9A8)) (.node 0x993328A5E6 (.leaf 0x9AA) (.leaf 0x9B0)))) (.node 0x993357D0D9 (.node 0x99332BB9E6 (.node 0x99332AA5E6 (.leaf 0x9B8) (.leaf 0x9A4)) (.node 0x99332FA5E6 (.leaf 0x98A) (.leaf 0x9AF))) (.node 0x99348FF368 (.node 0x99335CD0D9 (.leaf 0x1454B) (.leaf 0x14551)) (.node 0x993498F1B5 (.leaf 0x1D27) (.leaf 0x1D26))))) (nameTree_1180)
def nameTree_1182 : NameTree := .node 0x9968340ECF (.node 0x99683310CF (.node 0x9968330CCF (.node 0x99683214CF (.leaf 0x18807) (.node 0x9968330BCF (.leaf 0x18808) (.leaf 0x18809))) (.node 0x9968330ECF (.node 0x9968330DCF (.leaf 0x1880A) (.leaf 0x1880B)) (.node 0x9968330FCF (.leaf 0x1880C) (.leaf 0x1880D)))) (.node 0x99683314CF (.node 0x99683312CF (.node 0x99683311CF (.leaf 0x1880E) (.leaf 0x1880F)) (.node 0x99683313CF (.leaf 0x18810) (.leaf 0x18811))) (.node 0x9968340CCF (.node 0x9968340BCF (.leaf 0x18812) (.leaf 0x18813)) (.node 0x9968340DCF (.leaf 0x18814) (.leaf 0x18815))))) (.node 0x9968350BCF (.node 0x99683411CF (.node 0x9968340FCF (.leaf 0x18816) (.node 0x99683410CF (.leaf 0x18817) (.leaf 0x18818))) (.node 0x99683413CF (.node 0x99683412CF (.leaf 0x18819) (.leaf 0x1881A)) (.node 0x99683414CF (.leaf 0x1881B) (.leaf 0x1881C)))) (.node 0x9968350FCF (.node 0x9968350DCF (.node 0x9968350CCF (.leaf 0x1881D) (.leaf 0x1881E)) (.node 0x9968350ECF (.leaf 0x1881F) (.leaf 0x18820))) (.node 0x99683511CF (.node 0x99683510CF (.leaf 0x18821) (.leaf 0x18822)) (.node 0x99683512CF (.leaf 0x18823) (.leaf 0x18824)))))
def nameTree_1183 : NameTree := .node 0x9968380CCF (.node 0x99683712CF (.node 0x99683710CF (.node 0x9968370FCF (.leaf 0x18834) (.leaf 0x18835)) (.node 0x99683711CF (.leaf 0x18836) (.leaf 0x18837))) (.node 0x99683714CF (.node 0x99683713CF (.leaf 0x18838) (.leaf 0x18839)) (.node 0x9968380BCF (.leaf 0x1883A) (.leaf 0x1883B)))) (.node 0x99683810CF (.node 0x9968380ECF (.node 0x9968380DCF (.leaf 0x1883C) (.leaf 0x1883D)) (.node 0x9968380FCF (.leaf 0x1883E) (.leaf 0x1883F))) (.node 0x99683812CF (.node 0x99683811CF (.leaf 0x18840) (.leaf 0x18841)) (.node 0x99683813CF (.leaf 0x18842) (.leaf 0x18843))))
def nameTree_1184 : NameTree := .node 0x9968370ECF (.node 0x99683610CF (.node 0x9968360CCF (.node 0x99683514CF (.leaf 0x18825) (.node 0x9968360BCF (.leaf 0x18826) (.leaf 0x18827))) (.node 0x9968360ECF (.node 0x9968360DCF (.leaf 0x18828) (.leaf 0x18829)) (.node 0x9968360FCF (.leaf 0x1882A) (.leaf 0x1882B)))) (.node 0x99683614CF (.node 0x99683612CF (.node 0x99683611CF (.leaf 0x1882C) (.leaf 0x1882D)) (.node 0x99683613CF (.leaf 0x1882E) (.leaf 0x1882F))) (.node 0x9968370CCF (.node 0x9968370BCF (.leaf 0x18830) (.leaf 0x18831)) (.node 0x9968370DCF (.leaf 0x18832) (.leaf 0x18833))))) (nameTree_1183)
def nameTree_1185 : NameTree := .node 0x99683B0DCF (.node 0x99683A13CF (.node 0x99683A11CF (.node 0x99683A10CF (.leaf 0x18853) (.leaf 0x18854)) (.node 0x99683A12CF (.leaf 0x18855) (.leaf 0x18856))) (.node 0x99683B0BCF (.node 0x99683A14CF (.leaf 0x18857) (.leaf 0x18858)) (.node 0x99683B0CCF (.leaf 0x18859) (.leaf 0x1885A)))) (.node 0x99683B11CF (.node 0x99683B0FCF (.node 0x99683B0ECF (.leaf 0x1885B) (.leaf 0x1885C)) (.node 0x99683B10CF (.leaf 0x1885D) (.leaf 0x1885E))) (.node 0x99683B13CF (.node 0x99683B12CF (.leaf 0x1885F) (.leaf 0x18860)) (.node 0x99683B14CF (.leaf 0x18861) (.leaf 0x18862))))
def nameTree_1186 : NameTree := .node 0x99683A0FCF (.node 0x99683911CF (.node 0x9968390DCF (.node 0x9968390BCF (.leaf 0x18844) (.node 0x9968390CCF (.leaf 0x18845) (.leaf 0x18846))) (.node 0x9968390FCF (.node 0x9968390ECF (.leaf 0x18847) (.leaf 0x18848)) (.node 0x99683910CF (.leaf 0x18849) (.leaf 0x1884A)))) (.node 0x99683A0BCF (.node 0x99683913CF (.node 0x99683912CF (.leaf 0x1884B) (.leaf 0x1884C)) (.node 0x99683914CF (.leaf 0x1884D) (.leaf 0x1884E))) (.node 0x99683A0DCF (.node 0x99683A0CCF (.leaf 0x1884F) (.leaf 0x18850)) (.node 0x99683A0ECF (.leaf 0x18851) (.leaf 0x18852))))) (nameTree_1185)
def nameTree_1187 : NameTree := .node 0x9969340ECF (.node 0x99693314CF (.node 0x99693312CF (.node 0x99693311CF (.leaf 0x18872) (.leaf 0x18873)) (.node 0x99693313CF (.leaf 0x18874) (.leaf 0x18875))) (.node 0x9969340CCF (.node 0x9969340BCF (.leaf 0x18876) (.leaf 0x18877)) (.node 0x9969340DCF (.leaf 0x18878) (.leaf 0x18879)))) (.node 0x99693412CF (.node 0x99693410CF (.node 0x9969340FCF (.leaf 0x1887A) (.leaf 0x1887B)) (.node 0x99693411CF (.leaf 0x1887C) (.leaf 0x1887D))) (.node 0x99693414CF (.node 0x99693413CF (.leaf 0x1887E) (.leaf 0x1887F)) (.node 0x9969350BCF (.leaf 0x18880) (.leaf 0x18881))))
def nameTree_1188 : NameTree := .node 0x99693310CF (.node 0x99693212CF (.node 0x9969320ECF (.node 0x9969320CCF (.leaf 0x18863) (.node 0x9969320DCF (.leaf 0x18864) (.leaf 0x18865))) (.node 0x99693210CF (.node 0x9969320FCF (.leaf 0x18866) (.leaf 0x18867)) (.node 0x99693211CF (.leaf 0x18868) (.leaf 0x18869)))) (.node 0x9969330CCF (.node 0x99693214CF (.node 0x99693213CF (.leaf 0x1886A) (.leaf 0x1886B)) (.node 0x9969330BCF (.leaf 0x1886C) (.leaf 0x1886D))) (.node 0x9969330ECF (.node 0x9969330DCF (.leaf 0x1886E) (.leaf 0x1886F)) (.node 0x9969330FCF (.leaf 0x18870) (.leaf 0x18871))))) (nameTree_1187)
def nameTree_1189 : NameTree := .node 0x99693611CF (.node 0x99693513CF (.node 0x9969350FCF (.node 0x9969350DCF (.leaf 0x18882) (.node 0x9969350ECF (.leaf 0x18883) (.leaf 0x18884))) (.node 0x99693511CF (.node 0x99693510CF (.leaf 0x18885) (.leaf 0x18886)) (.node 0x99693512CF (.leaf 0x18887) (.leaf 0x18888)))) (.node 0x9969360DCF (.node 0x9969360BCF (.node 0x99693514CF (.leaf 0x18889) (.leaf 0x1888A)) (.node 0x9969360CCF (.leaf 0x1888B) (.leaf 0x1888C))) (.node 0x9969360FCF (.node 0x9969360ECF (.leaf 0x1888D) (.leaf 0x1888E)) (.node 0x99693610CF (.leaf 0x1888F) (.leaf 0x18890))))) (.node 0x9969370ECF (.node 0x99693614CF (.node 0x99693612CF (.leaf 0x18891) (.node 0x99693613CF (.leaf 0x18892) (.leaf 0x18893))) (.node 0x9969370CCF (.node 0x9969370BCF (.leaf 0x18894) (.leaf 0x18895)) (.node 0x9969370DCF (.leaf 0x18896) (.leaf 0x18897)))) (.node 0x99693712CF (.node 0x99693710CF (.node 0x9969370FCF (.leaf 0x18898) (.leaf 0x18899)) (.node 0x99693711CF (.leaf 0x1889A) (.leaf 0x1889B))) (.node 0x99693714CF (.node 0x99693713CF (.leaf 0x1889C) (.leaf 0x1889D)) (.node 0x9969380BCF (.leaf 0x1889E) (.leaf 0x1889F)))))
def nameTree_1190 : NameTree := .node 0x99693A0FCF (.node 0x99693A0BCF (.node 0x99693913CF (.node 0x99693912CF (.leaf 0x188AF) (.leaf 0x188B0)) (.node 0x99693914CF (.leaf 0x188B1) (.leaf 0x188B2))) (.node 0x99693A0DCF (.node 0x99693A0CCF (.leaf 0x188B3) (.leaf 0x188B4)) (.node 0x99693A0ECF (.leaf 0x188B5) (.leaf 0x188B6)))) (.node 0x99693A13CF (.node 0x99693A11CF (.node 0x99693A10CF (.leaf 0x188B7) (.leaf 0x188B8)) (.node 0x99693A12CF (.leaf 0x188B9) (.leaf 0x188BA))) (.node 0x99693B0BCF (.node 0x99693A14CF (.leaf 0x188BB) (.leaf 0x188BC)) (.node 0x99693B0CCF (.leaf 0x188BD) (.leaf 0x188BE))))
def nameTree_1191 : NameTree := .node 0x99693911CF (.node 0x99693813CF (.node 0x9969380FCF (.node 0x9969380DCF (.leaf 0x188A0) (.node 0x9969380ECF (.leaf 0x188A1) (.leaf 0x188A2))) (.node 0x99693811CF (.node 0x99693810CF (.leaf 0x188A3) (.leaf 0x188A4)) (.node 0x99693812CF (.leaf 0x188A5) (.leaf 0x188A6)))) (.node 0x9969390DCF (.node 0x9969390BCF (.node 0x99693814CF (.leaf 0x188A7) (.leaf 0x188A8)) (.node 0x9969390CCF (.leaf 0x188A9) (.leaf 0x188AA))) (.node 0x9969390FCF (.node 0x9969390ECF (.leaf 0x188AB) (.leaf 0x188AC)) (.node 0x99693910CF (.leaf 0x188AD) (.leaf 0x188AE))))) (nameTree_1190)
def nameTree_1192 : NameTree := .node 0x996A330FCF (.node 0x996A330BCF (.node 0x996A3213CF (.node 0x996A3212CF (.leaf 0x188CD) (.leaf 0x188CE)) (.node 0x996A3214CF (.leaf 0x188CF) (.leaf 0x188D0))) (.node 0x996A330DCF (.node 0x996A330CCF (.leaf 0x188D1) (.leaf 0x188D2)) (.node 0x996A330ECF (.leaf 0x188D3) (.leaf 0x188D4)))) (.node 0x996A3313CF (.node 0x996A3311CF (.node 0x996A3310CF (.leaf 0x188D5) (.leaf 0x188D6)) (.node 0x996A3312CF (.leaf 0x188D7) (.leaf 0x188D8))) (.node 0x996A340BCF (.node 0x996A3314CF (.leaf 0x188D9) (.leaf 0x188DA)) (.node 0x996A340CCF (.leaf 0x188DB) (.leaf 0x188DC))))
def nameTree_1193 : NameTree := .node 0x996A3211CF (.node 0x99693B14CF (.node 0x99693B10CF (.node 0x99693B0ECF (.leaf 0x188BF) (.node 0x99693B0FCF (.leaf 0x188C0) (.leaf 0x188C1))) (.node 0x99693B12CF (.node 0x99693B11CF (.leaf 0x188C2) (.leaf 0x188C3)) (.node 0x99693B13CF (.leaf 0x188C4) (.leaf 0x188C5)))) (.node 0x996A320DCF (.node 0x996A320BCF (.node 0x99693C695C (.leaf 0x188C6) (.leaf 0x234C)) (.node 0x996A320CCF (.leaf 0x188C7) (.leaf 0x188C8))) (.node 0x996A320FCF (.node 0x996A320ECF (.leaf 0x188C9) (.leaf 0x188CA)) (.node 0x996A3210CF (.leaf 0x188CB) (.leaf 0x188CC))))) (nameTree_1192)
def nameTree_1194 : NameTree := .node 0x996A3610CF (.node 0x996A360CCF (.node 0x996A3514CF (.node 0x996A3513CF (.leaf 0x188EC) (.leaf 0x188ED)) (.node 0x996A360BCF (.leaf 0x188EE) (.leaf 0x188EF))) (.node 0x996A360ECF (.node 0x996A360DCF (.leaf 0x188F0) (.leaf 0x188F1)) (.node 0x996A360FCF (.leaf 0x188F2) (.leaf 0x188F3)))) (.node 0x996A3614CF (.node 0x996A3612CF (.node 0x996A3611CF (.leaf 0x188F4) (.leaf 0x188F5)) (.node 0x996A3613CF (.leaf 0x188F6) (.leaf 0x188F7))) (.node 0x996A370CCF (.node 0x996A370BCF (.leaf 0x188F8) (.leaf 0x188F9)) (.node 0x996A370DCF (.leaf 0x188FA) (.leaf 0x188FB))))
def nameTree_1195 : NameTree := .node 0x996A3512CF (.node 0x996A3414CF (.node 0x996A3410CF (.node 0x996A340ECF (.leaf 0x188DD) (.node 0x996A340FCF (.leaf 0x188DE) (.leaf 0x188DF))) (.node 0x996A3412CF (.node 0x996A3411CF (.leaf 0x188E0) (.leaf 0x188E1)) (.node 0x996A3413CF (.leaf 0x188E2) (.leaf 0x188E3)))) (.node 0x996A350ECF (.node 0x996A350CCF (.node 0x996A350BCF (.leaf 0x188E4) (.leaf 0x188E5)) (.node 0x996A350DCF (.leaf 0x188E6) (.leaf 0x188E7))) (.node 0x996A3510CF (.node 0x996A350FCF (.leaf 0x188E8) (.leaf 0x188E9)) (.node 0x996A3511CF (.leaf 0x188EA) (.leaf 0x188EB))))) (nameTree_1194)
def nameTree_1196 : NameTree := .node 0x996A3813CF (.node 0x996A380BCF (.node 0x996A3711CF (.node 0x996A370FCF (.leaf 0x188FC) (.node 0x996A3710CF (.leaf 0x188FD) (.leaf 0x188FE))) (.node 0x996A3713CF (.node 0x996A3712CF (.leaf 0x188FF) (.leaf 0x18900)) (.node 0x996A3714CF (.leaf 0x18901) (.leaf 0x18902)))) (.node 0x996A380FCF (.node 0x996A380DCF (.node 0x996A380CCF (.leaf 0x18903) (.leaf 0x18904)) (.node 0x996A380ECF (.leaf 0x18905) (.leaf 0x18906))) (.node 0x996A3811CF (.node 0x996A3810CF (.leaf 0x18907) (.leaf 0x18908)) (.node 0x996A3812CF (.leaf 0x18909) (.leaf 0x1890A))))) (.node 0x996A3910CF (.node 0x996A390CCF (.node 0x996A3814CF (.leaf 0x1890B) (.node 0x996A390BCF (.leaf 0x1890C) (.leaf 0x1890D))) (.node 0x996A390ECF (.node 0x996A390DCF (.leaf 0x1890E) (.leaf 0x1890F)) (.node 0x996A390FCF (.leaf 0x18910) (.leaf 0x18911)))) (.node 0x996A3914CF (.node 0x996A3912CF (.node 0x996A3911CF (.leaf 0x18912) (.leaf 0x18913)) (.node 0x996A3913CF (.leaf 0x18914) (.leaf 0x18915))) (.node 0x996A3A0CCF (.node 0x996A3A0BCF (.leaf 0x18916) (.leaf 0x18917)) (.node 0x996A3A0DCF (.leaf 0x18918) (.leaf 0x18919)))))
def nameTree_1197 : NameTree := .node 0x996B3211CF (.node 0x996B320DCF (.node 0x996B320BCF (.node 0x996A3B14CF (.leaf 0x18929) (.leaf 0x1892A)) (.node 0x996B320CCF (.leaf 0x1892B) (.leaf 0x1892C))) (.node 0x996B320FCF (.node 0x996B320ECF (.leaf 0x1892D) (.leaf 0x1892E)) (.node 0x996B3210CF (.leaf 0x1892F) (.leaf 0x18930)))) (.node 0x996B330BCF (.node 0x996B3213CF (.node 0x996B3212CF (.leaf 0x18931) (.leaf 0x18932)) (.node 0x996B3214CF (.leaf 0x18933) (.leaf 0x18934))) (.node 0x996B330DCF (.node 0x996B330CCF (.leaf 0x18935) (.leaf 0x18936)) (.node 0x996B330ECF (.leaf 0x18937) (.leaf 0x18938))))
def nameTree_1198 : NameTree := .node 0x996A3B13CF (.node 0x996A3B0BCF (.node 0x996A3A11CF (.node 0x996A3A0FCF (.leaf 0x1891A) (.node 0x996A3A10CF (.leaf 0x1891B) (.leaf 0x1891C))) (.node 0x996A3A13CF (.node 0x996A3A12CF (.leaf 0x1891D) (.leaf 0x1891E)) (.node 0x996A3A14CF (.leaf 0x1891F) (.leaf 0x18920)))) (.node 0x996A3B0FCF (.node 0x996A3B0DCF (.node 0x996A3B0CCF (.leaf 0x18921) (.leaf 0x18922)) (.node 0x996A3B0ECF (.leaf 0x18923) (.leaf 0x18924))) (.node 0x996A3B11CF (.node 0x996A3B10CF (.leaf 0x18925) (.leaf 0x18926)) (.node 0x996A3B12CF (.leaf 0x18927) (.leaf 0x18928))))) (nameTree_1197)
def nameTree_1199 : NameTree := .node 0x996B3512CF (.node 0x996B350ECF (.node 0x996B350CCF (.node 0x996B350BCF (.leaf 0x18948) (.leaf 0x18949)) (.node 0x996B350DCF (.leaf 0x1894A) (.leaf 0x1894B))) (.node 0x996B3510CF (.node 0x996B350FCF (.leaf 0x1894C) (.leaf 0x1894D)) (.node 0x996B3511CF (.leaf 0x1894E) (.leaf 0x1894F)))) (.node 0x996B360CCF (.node 0x996B3514CF (.node 0x996B3513CF (.leaf 0x18950) (.leaf 0x18951)) (.node 0x996B360BCF (.leaf 0x18952) (.leaf 0x18953))) (.node 0x996B360ECF (.node 0x996B360DCF (.leaf 0x18954) (.leaf 0x18955)) (.node 0x996B360FCF (.leaf 0x18956) (.leaf 0x18957))))
def nameTree_1200 : NameTree := .node 0x996B3414CF (.node 0x996B340CCF (.node 0x996B3312CF (.node 0x996B3310CF (.leaf 0x18939) (.node 0x996B3311CF (.leaf 0x1893A) (.leaf 0x1893B))) (.node 0x996B3314CF (.node 0x996B3313CF (.leaf 0x1893C) (.leaf 0x1893D)) (.node 0x996B340BCF (.leaf 0x1893E) (.leaf 0x1893F)))) (.node 0x996B3410CF (.node 0x996B340ECF (.node 0x996B340DCF (.leaf 0x18940) (.leaf 0x18941)) (.node 0x996B340FCF (.leaf 0x18942) (.leaf 0x18943))) (.node 0x996B3412CF (.node 0x996B3411CF (.leaf 0x18944) (.leaf 0x18945)) (.node 0x996B3413CF (.leaf 0x18946) (.leaf 0x18947))))) (nameTree_1199)
def nameTree_1201 : NameTree := .node 0x996B3813CF (.node 0x996B380FCF (.node 0x996B380DCF (.node 0x996B380CCF (.leaf 0x18967) (.leaf 0x18968)) (.node 0x996B380ECF (.leaf 0x18969) (.leaf 0x1896A))) (.node 0x996B3811CF (.node 0x996B3810CF (.leaf 0x1896B) (.leaf 0x1896C)) (.node 0x996B3812CF (.leaf 0x1896D) (.leaf 0x1896E)))) (.node 0x996B390DCF (.node 0x996B390BCF (.node 0x996B3814CF (.leaf 0x1896F) (.leaf 0x18970)) (.node 0x996B390CCF (.leaf 0x18971) (.leaf 0x18972))) (.node 0x996B390FCF (.node 0x996B390ECF (.leaf 0x18973) (.leaf 0x18974)) (.node 0x996B3910CF (.leaf 0x18975) (.leaf 0x18976))))
def nameTree_1202 : NameTree := .node 0x996B380BCF (.node 0x996B370DCF (.node 0x996B3613CF (.node 0x996B3611CF (.leaf 0x18958) (.node 0x996B3612CF (.leaf 0x18959) (.leaf 0x1895A))) (.node 0x996B370BCF (.node 0x996B3614CF (.leaf 0x1895B) (.leaf 0x1895C)) (.node 0x996B370CCF (.leaf 0x1895D) (.leaf 0x1895E)))) (.node 0x996B3711CF (.node 0x996B370FCF (.node 0x996B370ECF (.leaf 0x1895F) (.leaf 0x18960)) (.node 0x996B3710CF (.leaf 0x18961) (.leaf 0x18962))) (.node 0x996B3713CF (.node 0x996B3712CF (.leaf 0x18963) (.leaf 0x18964)) (.node 0x996B3714CF (.leaf 0x18965) (.leaf 0x18966))))) (nameTree_1201)
def nameTree_1203 : NameTree := .node 0x996B3B0CCF (.node 0x996B3A0ECF (.node 0x996B3914CF (.node 0x996B3912CF (.leaf 0x18977) (.node 0x996B3913CF (.leaf 0x18978) (.leaf 0x18979))) (.node 0x996B3A0CCF (.node 0x996B3A0BCF (.leaf 0x1897A) (.leaf 0x1897B)) (.node 0x996B3A0DCF (.leaf 0x1897C) (.leaf 0x1897D)))) (.node 0x996B3A12CF (.node 0x996B3A10CF (.node 0x996B3A0FCF (.leaf 0x1897E) (.leaf 0x1897F)) (.node 0x996B3A11CF (.leaf 0x18980) (.leaf 0x18981))) (.node 0x996B3A14CF (.node 0x996B3A13CF (.leaf 0x18982) (.leaf 0x18983)) (.node 0x996B3B0BCF (.leaf 0x18984) (.leaf 0x18985))))) (.node 0x996B3B13CF (.node 0x996B3B0FCF (.node 0x996B3B0DCF (.leaf 0x18986) (.node 0x996B3B0ECF (.leaf 0x18987) (.leaf 0x18988))) (.node 0x996B3B11CF (.node 0x996B3B10CF (.leaf 0x18989) (.leaf 0x1898A)) (.node 0x996B3B12CF (.leaf 0x1898B) (.leaf 0x1898C)))) (.node 0x996C320DCF (.node 0x996C320BCF (.node 0x996B3B14CF (.leaf 0x1898D) (.leaf 0x1898E)) (.node 0x996C320CCF (.leaf 0x1898F) (.leaf 0x18990))) (.node 0x996C320FCF (.node 0x996C320ECF (.leaf 0x18991) (.leaf 0x18992)) (.node 0x996C3210CF (.leaf 0x18993) (.leaf 0x18994)))))
def nameTree_1204 : NameTree := .node 0x996C3414CF (.node 0x996C3410CF (.node 0x996C340ECF (.node 0x996C340DCF (.leaf 0x189A4) (.leaf 0x189A5)) (.node 0x996C340FCF (.leaf 0x189A6) (.leaf 0x189A7))) (.node 0x996C3412CF (.node 0x996C3411CF (.leaf 0x189A8) (.leaf 0x189A9)) (.node 0x996C3413CF (.leaf 0x189AA) (.leaf 0x189AB)))) (.node 0x996C350ECF (.node 0x996C350CCF (.node 0x996C350BCF (.leaf 0x189AC) (.leaf 0x189AD)) (.node 0x996C350DCF (.leaf 0x189AE) (.leaf 0x189AF))) (.node 0x996C3510CF (.node 0x996C350FCF (.leaf 0x189B0) (.leaf 0x189B1)) (.node 0x996C3511CF (.leaf 0x189B2) (.leaf 0x189B3))))
def nameTree_1205 : NameTree := .node 0x996C340CCF (.node 0x996C330ECF (.node 0x996C3214CF (.node 0x996C3212CF (.leaf 0x18995) (.node 0x996C3213CF (.leaf 0x18996) (.leaf 0x18997))) (.node 0x996C330CCF (.node 0x996C330BCF (.leaf 0x18998) (.leaf 0x18999)) (.node 0x996C330DCF (.leaf 0x1899A) (.leaf 0x1899B)))) (.node 0x996C3312CF (.node 0x996C3310CF (.node 0x996C330FCF (.leaf 0x1899C) (.leaf 0x1899D)) (.node 0x996C3311CF (.leaf 0x1899E) (.leaf 0x1899F))) (.node 0x996C3314CF (.node 0x996C3313CF (.leaf 0x189A0) (.leaf 0x189A1)) (.node 0x996C340BCF (.leaf 0x189A2) (.leaf 0x189A3))))) (nameTree_1204)
def nameTree_1206 : NameTree := .node 0x996C380BCF (.node 0x996C3711CF (.node 0x996C370FCF (.node 0x996C370ECF (.leaf 0x189C3) (.leaf 0x189C4)) (.node 0x996C3710CF (.leaf 0x189C5) (.leaf 0x189C6))) (.node 0x996C3713CF (.node 0x996C3712CF (.leaf 0x189C7) (.leaf 0x189C8)) (.node 0x996C3714CF (.leaf 0x189C9) (.leaf 0x189CA)))) (.node 0x996C380FCF (.node 0x996C380DCF (.node 0x996C380CCF (.leaf 0x189CB) (.leaf 0x189CC)) (.node 0x996C380ECF (.leaf 0x189CD) (.leaf 0x189CE))) (.node 0x996C3811CF (.node 0x996C3810CF (.leaf 0x189CF) (.leaf 0x189D0)) (.node 0x996C3812CF (.leaf 0x189D1) (.leaf 0x189D2))))
def nameTree_1207 : NameTree := .node 0x996C370DCF (.node 0x996C360FCF (.node 0x996C360BCF (.node 0x996C3513CF (.leaf 0x189B4) (.node 0x996C3514CF (.leaf 0x189B5) (.leaf 0x189B6))) (.node 0x996C360DCF (.node 0x996C360CCF (.leaf 0x189B7) (.leaf 0x189B8)) (.node 0x996C360ECF (.leaf 0x189B9) (.leaf 0x189BA)))) (.node 0x996C3613CF (.node 0x996C3611CF (.node 0x996C3610CF (.leaf 0x189BB) (.leaf 0x189BC)) (.node 0x996C3612CF (.leaf 0x189BD) (.leaf 0x189BE))) (.node 0x996C370BCF (.node 0x996C3614CF (.leaf 0x189BF) (.leaf 0x189C0)) (.node 0x996C370CCF (.leaf 0x189C1) (.leaf 0x189C2))))) (nameTree_1206)
def nameTree_1208 : NameTree := .node 0x996C3B0CCF (.node 0x996C3A12CF (.node 0x996C3A10CF (.node 0x996C3A0FCF (.leaf 0x189E2) (.leaf 0x189E3)) (.node 0x996C3A11CF (.leaf 0x189E4) (.leaf 0x189E5))) (.node 0x996C3A14CF (.node 0x996C3A13CF (.leaf 0x189E6) (.leaf 0x189E7)) (.node 0x996C3B0BCF (.leaf 0x189E8) (.leaf 0x189E9)))) (.node 0x996C3B10CF (.node 0x996C3B0ECF (.node 0x996C3B0DCF (.leaf 0x189EA) (.leaf 0x189EB)) (.node 0x996C3B0FCF (.leaf 0x189EC) (.leaf 0x189ED))) (.node 0x996C3B12CF (.node 0x996C3B11CF (.leaf 0x189EE) (.leaf 0x189EF)) (.node 0x996C3B13CF (.leaf 0x189F0) (.leaf 0x189F1))))
def nameTree_1209 : NameTree := .node 0x996C3A0ECF (.node 0x996C3910CF (.node 0x996C390CCF (.node 0x996C3814CF (.leaf 0x189D3) (.node 0x996C390BCF (.leaf 0x189D4) (.leaf 0x189D5))) (.node 0x996C390ECF (.node 0x996C390DCF (.leaf 0x189D6) (.leaf 0x189D7)) (.node 0x996C390FCF (.leaf 0x189D8) (.leaf 0x189D9)))) (.node 0x996C3914CF (.node 0x996C3912CF (.node 0x996C3911CF (.leaf 0x189DA) (.leaf 0x189DB)) (.node 0x996C3913CF (.leaf 0x189DC) (.leaf 0x189DD))) (.node 0x996C3A0CCF (.node 0x996C3A0BCF (.leaf 0x189DE) (.leaf 0x189DF)) (.node 0x996C3A0DCF (.leaf 0x189E0) (.leaf 0x189E1))))) (nameTree_1208)
def nameTree_1210 : NameTree := .node 0x996D340CCF (.node 0x996D3312CF (.node 0x996D3310CF (.node 0x996D330FCF (.leaf 0x18A00) (.leaf 0x18A01)) (.node 0x996D3311CF (.leaf 0x18A02) (.leaf 0x18A03))) (.node 0x996D3314CF (.node 0x996D3313CF (.leaf 0x18A04) (.leaf 0x18A05)) (.node 0x996D340BCF (.leaf 0x18A06) (.leaf 0x18A07)))) (.node 0x996D3410CF (.node 0x996D340ECF (.node 0x996D340DCF (.leaf 0x18A08) (.leaf 0x18A09)) (.node 0x996D340FCF (.leaf 0x18A0A) (.leaf 0x18A0B))) (.node 0x996D3412CF (.node 0x996D3411CF (.leaf 0x18A0C) (.leaf 0x18A0D)) (.node 0x996D3413CF (.leaf 0x18A0E) (.leaf 0x18A0F))))
def nameTree_1211 : NameTree := .node 0x996D330ECF (.node 0x996D3210CF (.node 0x996D320CCF (.node 0x996C5DF98D (.leaf 0x189F2) (.node 0x996D320BCF (.leaf 0x10154) (.leaf 0x189F3))) (.node 0x996D320ECF (.node 0x996D320DCF (.leaf 0x189F4) (.leaf 0x189F5)) (.node 0x996D320FCF (.leaf 0x189F6) (.leaf 0x189F7)))) (.node 0x996D3214CF (.node 0x996D3212CF (.node 0x996D3211CF (.leaf 0x189F8) (.leaf 0x189F9)) (.node 0x996D3213CF (.leaf 0x189FA) (.leaf 0x189FB))) (.node 0x996D330CCF (.node 0x996D330BCF (.leaf 0x189FC) (.leaf 0x189FD)) (.node 0x996D330DCF (.leaf 0x189FE) (.leaf 0x189FF))))) (nameTree_1210)
def nameTree_1212 : NameTree := .node 0x996D370DCF (.node 0x996D3613CF (.node 0x996D3611CF (.node 0x996D3610CF (.leaf 0x18A1F) (.leaf 0x18A20)) (.node 0x996D3612CF (.leaf 0x18A21) (.leaf 0x18A22))) (.node 0x996D370BCF (.node 0x996D3614CF (.leaf 0x18A23) (.leaf 0x18A24)) (.node 0x996D370CCF (.leaf 0x18A25) (.leaf 0x18A26)))) (.node 0x996D3711CF (.node 0x996D370FCF (.node 0x996D370ECF (.leaf 0x18A27) (.leaf 0x18A28)) (.node 0x996D3710CF (.leaf 0x18A29) (.leaf 0x18A2A))) (.node 0x996D3713CF (.node 0x996D3712CF (.leaf 0x18A2B) (.leaf 0x18A2C)) (.node 0x996D3714CF (.leaf 0x18A2D) (.leaf 0x18A2E))))
def nameTree_1213 : NameTree := .node 0x996D360FCF (.node 0x996D3511CF (.node 0x996D350DCF (.node 0x996D350BCF (.leaf 0x18A10) (.node 0x996D350CCF (.leaf 0x18A11) (.leaf 0x18A12))) (.node 0x996D350FCF (.node 0x996D350ECF (.leaf 0x18A13) (.leaf 0x18A14)) (.node 0x996D3510CF (.leaf 0x18A15) (.leaf 0x18A16)))) (.node 0x996D360BCF (.node 0x996D3513CF (.node 0x996D3512CF (.leaf 0x18A17) (.leaf 0x18A18)) (.node 0x996D3514CF (.leaf 0x18A19) (.leaf 0x18A1A))) (.node 0x996D360DCF (.node 0x996D360CCF (.leaf 0x18A1B) (.leaf 0x18A1C)) (.node 0x996D360ECF (.leaf 0x18A1D) (.leaf 0x18A1E))))) (nameTree_1212)
def nameTree_1214 : NameTree := .node 0x996D3A0ECF (.node 0x996D3914CF (.node 0x996D3912CF (.node 0x996D3911CF (.leaf 0x18A3E) (.leaf 0x18A3F)) (.node 0x996D3913CF (.leaf 0x18A40) (.leaf 0x18A41))) (.node 0x996D3A0CCF (.node 0x996D3A0BCF (.leaf 0x18A42) (.leaf 0x18A43)) (.node 0x996D3A0DCF (.leaf 0x18A44) (.leaf 0x18A45)))) (.node 0x996D3A12CF (.node 0x996D3A10CF (.node 0x996D3A0FCF (.leaf 0x18A46) (.leaf 0x18A47)) (.node 0x996D3A11CF (.leaf 0x18A48) (.leaf 0x18A49))) (.node 0x996D3A14CF (.node 0x996D3A13CF (.leaf 0x18A4A) (.leaf 0x18A4B)) (.node 0x996D3B0BCF (.leaf 0x18A4C) (.leaf 0x18A4D))))
def nameTree_1215 : NameTree := .node 0x996D3910CF (.node 0x996D3812CF (.node 0x996D380ECF (.node 0x996D380CCF (.leaf 0x18A2F) (.node 0x996D380DCF (.leaf 0x18A30) (.leaf 0x18A31))) (.node 0x996D3810CF (.node 0x996D380FCF (.leaf 0x18A32) (.leaf 0x18A33)) (.node 0x996D3811CF (.leaf 0x18A34) (.leaf 0x18A35)))) (.node 0x996D390CCF (.node 0x996D3814CF (.node 0x996D3813CF (.leaf 0x18A36) (.leaf 0x18A37)) (.node 0x996D390BCF (.leaf 0x18A38) (.leaf 0x18A39))) (.node 0x996D390ECF (.node 0x996D390DCF (.leaf 0x18A3A) (.leaf 0x18A3B)) (.node 0x996D390FCF (.leaf 0x18A3C) (.leaf 0x18A3D))))) (nameTree_1214)
def nameTree_1216 : NameTree := .node 0x996E330FCF (.node 0x996E330BCF (.node 0x996E3213CF (.node 0x996E3212CF (.leaf 0x18A5D) (.leaf 0x18A5E)) (.node 0x996E3214CF (.leaf 0x18A5F) (.leaf 0x18A60))) (.node 0x996E330DCF (.node 0x996E330CCF (.leaf 0x18A61) (.leaf 0x18A62)) (.node 0x996E330ECF (.leaf 0x18A63) (.leaf 0x18A64)))) (.node 0x996E3313CF (.node 0x996E3311CF (.node 0x996E3310CF (.leaf 0x18A65) (.leaf 0x18A66)) (.node 0x996E3312CF (.leaf 0x18A67) (.leaf 0x18A68))) (.node 0x996E340BCF (.node 0x996E3314CF (.leaf 0x18A69) (.leaf 0x18A6A)) (.node 0x996E340CCF (.leaf 0x18A6B) (.leaf 0x18A6C))))
def nameTree_1217 : NameTree := .node 0x996E3211CF (.node 0x996D3B13CF (.node 0x996D3B0FCF (.node 0x996D3B0DCF (.leaf 0x18A4E) (.node 0x996D3B0ECF (.leaf 0x18A4F) (.leaf 0x18A50))) (.node 0x996D3B11CF (.node 0x996D3B10CF (.leaf 0x18A51) (.leaf 0x18A52)) (.node 0x996D3B12CF (.leaf 0x18A53) (.leaf 0x18A54)))) (.node 0x996E320DCF (.node 0x996E320BCF (.node 0x996D3B14CF (.leaf 0x18A55) (.leaf 0x18A56)) (.node 0x996E320CCF (.leaf 0x18A57) (.leaf 0x18A58))) (.node 0x996E320FCF (.node 0x996E320ECF (.leaf 0x18A59) (.leaf 0x18A5A)) (.node 0x996E3210CF (.leaf 0x18A5B) (.leaf 0x18A5C))))) (nameTree_1216)
def nameTree_1218 : NameTree := .node 0x9969350CCF (.node 0x986A9DCA77 (.node 0x976F978121 (.node 0x968DF98FEB (.node 0x962E3BB9B0 (nameTree_1161) (nameTree_1163)) (.node 0x96F5D4553D (nameTree_1165) (nameTree_1167))) (.node 0x9816FDD652 (.node 0x97CD4073AE (nameTree_1168) (nameTree_1170)) (.node 0x985703F673 (nameTree_1172) (nameTree_1174)))) (.node 0x99683213CF (.node 0x991A5B6C77 (.node 0x98B0D3B911 (nameTree_1175) (nameTree_1177)) (.node 0x993320A5E6 (nameTree_1179) (nameTree_1181))) (.node 0x99683814CF (.node 0x99683513CF (nameTree_1182) (nameTree_1184)) (.node 0x9969320BCF (nameTree_1186) (nameTree_1188))))) (.node 0x996B3911CF (.node 0x996A370ECF (.node 0x99693B0DCF (.node 0x9969380CCF (nameTree_1189) (nameTree_1191)) (.node 0x996A340DCF (nameTree_1193) (nameTree_1195))) (.node 0x996B330FCF (.node 0x996A3A0ECF (nameTree_1196) (nameTree_1198)) (.node 0x996B3610CF (nameTree_1200) (nameTree_1202)))) (.node 0x996C3B14CF (.node 0x996C3512CF (.node 0x996C3211CF (nameTree_1203) (nameTree_1205)) (.node 0x996C3813CF (nameTree_1207) (nameTree_1209))) (.node 0x996D380BCF (.node 0x996D3414CF (nameTree_1211) (nameTree_1213)) (.node 0x996D3B0CCF (nameTree_1215) (nameTree_1217)))))
def nameTree_1219 : NameTree := .node 0x996E3512CF (.node 0x996E3414CF (.node 0x996E3410CF (.node 0x996E340ECF (.leaf 0x18A6D) (.node 0x996E340FCF (.leaf 0x18A6E) (.leaf 0x18A6F))) (.node 0x996E3412CF (.node 0x996E3411CF (.leaf 0x18A70) (.leaf 0x18A71)) (.node 0x996E3413CF (.leaf 0x18A72) (.leaf 0x18A73)))) (.node 0x996E350ECF (.node 0x996E350CCF (.node 0x996E350BCF (.leaf 0x18A74) (.leaf 0x18A75)) (.node 0x996E350DCF (.leaf 0x18A76) (.leaf 0x18A77))) (.node 0x996E3510CF (.node 0x996E350FCF (.leaf 0x18A78) (.leaf 0x18A79)) (.node 0x996E3511CF (.leaf 0x18A7A) (.leaf 0x18A7B))))) (.node 0x996E360FCF (.node 0x996E360BCF (.node 0x996E3513CF (.leaf 0x18A7C) (.node 0x996E3514CF (.leaf 0x18A7D) (.leaf 0x18A7E))) (.node 0x996E360DCF (.node 0x996E360CCF (.leaf 0x18A7F) (.leaf 0x18A80)) (.node 0x996E360ECF (.leaf 0x18A81) (.leaf 0x18A82)))) (.node 0x996E3613CF (.node 0x996E3611CF (.node 0x996E3610CF (.leaf 0x18A83) (.leaf 0x18A84)) (.node 0x996E3612CF (.leaf 0x18A85) (.leaf 0x18A86))) (.node 0x996E370BCF (.node 0x996E3614CF (.leaf 0x18A87) (.leaf 0x18A88)) (.node 0x996E370CCF (.leaf 0x18A89) (.leaf 0x18A8A)))))
def nameTree_1220 : NameTree := .node 0x996E3910CF (.node 0x996E390CCF (.node 0x996E3814CF (.node 0x996E3813CF (.leaf 0x18A9A) (.leaf 0x18A9B)) (.node 0x996E390BCF (.leaf 0x18A9C) (.leaf 0x18A9D))) (.node 0x996E390ECF (.node 0x996E390DCF (.leaf 0x18A9E) (.leaf 0x18A9F)) (.node 0x996E390FCF (.leaf 0x18AA0) (.leaf 0x18AA1)))) (.node 0x996E3914CF (.node 0x996E3912CF (.node 0x996E3911CF (.leaf 0x18AA2) (.leaf 0x18AA3)) (.node 0x996E3913CF (.leaf 0x18AA4) (.leaf 0x18AA5))) (.node 0x996E3A0CCF (.node 0x996E3A0BCF (.leaf 0x18AA6) (.leaf 0x18AA7)) (.node 0x996E3A0DCF (.leaf 0x18AA8) (.leaf 0x18AA9))))
def nameTree_1221 : NameTree := .node 0x996E3812CF (.node 0x996E3714CF (.node 0x996E3710CF (.node 0x996E370ECF (.leaf 0x18A8B) (.node 0x996E370FCF (.leaf 0x18A8C) (.leaf 0x18A8D))) (.node 0x996E3712CF (.node 0x996E3711CF (.leaf 0x18A8E) (.leaf 0x18A8F)) (.node 0x996E3713CF (.leaf 0x18A90) (.leaf 0x18A91)))) (.node 0x996E380ECF (.node 0x996E380CCF (.node 0x996E380BCF (.leaf 0x18A92) (.leaf 0x18A93)) (.node 0x996E380DCF (.leaf 0x18A94) (.leaf 0x18A95))) (.node 0x996E3810CF (.node 0x996E380FCF (.leaf 0x18A96) (.leaf 0x18A97)) (.node 0x996E3811CF (.leaf 0x18A98) (.leaf 0x18A99))))) (nameTree_1220)
def nameTree_1222 : NameTree := .node 0x996F3211CF (.node 0x996F320DCF (.node 0x996F320BCF (.node 0x996E3B14CF (.leaf 0x18AB9) (.leaf 0x18ABA)) (.node 0x996F320CCF (.leaf 0x18ABB) (.leaf 0x18ABC))) (.node 0x996F320FCF (.node 0x996F320ECF (.leaf 0x18ABD) (.leaf 0x18ABE)) (.node 0x996F3210CF (.leaf 0x18ABF) (.leaf 0x18AC0)))) (.node 0x996F330BCF (.node 0x996F3213CF (.node 0x996F3212CF (.leaf 0x18AC1) (.leaf 0x18AC2)) (.node 0x996F3214CF (.leaf 0x18AC3) (.leaf 0x18AC4))) (.node 0x996F330DCF (.node 0x996F330CCF (.leaf 0x18AC5) (.leaf 0x18AC6)) (.node 0x996F330ECF (.leaf 0x18AC7) (.leaf 0x18AC8))))
def nameTree_1223 : NameTree := .node 0x996E3B13CF (.node 0x996E3B0BCF (.node 0x996E3A11CF (.node 0x996E3A0FCF (.leaf 0x18AAA) (.node 0x996E3A10CF (.leaf 0x18AAB) (.leaf 0x18AAC))) (.node 0x996E3A13CF (.node 0x996E3A12CF (.leaf 0x18AAD) (.leaf 0x18AAE)) (.node 0x996E3A14CF (.leaf 0x18AAF) (.leaf 0x18AB0)))) (.node 0x996E3B0FCF (.node 0x996E3B0DCF (.node 0x996E3B0CCF (.leaf 0x18AB1) (.leaf 0x18AB2)) (.node 0x996E3B0ECF (.leaf 0x18AB3) (.leaf 0x18AB4))) (.node 0x996E3B11CF (.node 0x996E3B10CF (.leaf 0x18AB5) (.leaf 0x18AB6)) (.node 0x996E3B12CF (.leaf 0x18AB7) (.leaf 0x18AB8))))) (nameTree_1222)
def nameTree_1224 : NameTree := .node 0x996F3512CF (.node 0x996F350ECF (.node 0x996F350CCF (.node 0x996F350BCF (.leaf 0x18AD8) (.leaf 0x18AD9)) (.node 0x996F350DCF (.leaf 0x18ADA) (.leaf 0x18ADB))) (.node 0x996F3510CF (.node 0x996F350FCF (.leaf 0x18ADC) (.leaf 0x18ADD)) (.node 0x996F3511CF (.leaf 0x18ADE) (.leaf 0x18ADF)))) (.node 0x996F360CCF (.node 0x996F3514CF (.node 0x996F3513CF (.leaf 0x18AE0) (.leaf 0x18AE1)) (.node 0x996F360BCF (.leaf 0x18AE2) (.leaf 0x18AE3))) (.node 0x996F360ECF (.node 0x996F360DCF (.leaf 0x18AE4) (.leaf 0x18AE5)) (.node 0x996F360FCF (.leaf 0x18AE6) (.leaf 0x18AE7))))
def nameTree_1225 : NameTree := .node 0x996F3414CF (.node 0x996F340CCF (.node 0x996F3312CF (.node 0x996F3310CF (.leaf 0x18AC9) (.node 0x996F3311CF (.leaf 0x18ACA) (.leaf 0x18ACB))) (.node 0x996F3314CF (.node 0x996F3313CF (.leaf 0x18ACC) (.leaf 0x18ACD)) (.node 0x996F340BCF (.leaf 0x18ACE) (.leaf 0x18ACF)))) (.node 0x996F3410CF (.node 0x996F340ECF (.node 0x996F340DCF (.leaf 0x18AD0) (.leaf 0x18AD1)) (.node 0x996F340FCF (.leaf 0x18AD2) (.leaf 0x18AD3))) (.node 0x996F3412CF (.node 0x996F3411CF (.leaf 0x18AD4) (.leaf 0x18AD5)) (.node 0x996F3413CF (.leaf 0x18AD6) (.leaf 0x18AD7))))) (nameTree_1224)
def nameTree_1226 : NameTree := .node 0x9975A5F552 (.node 0x996F370DCF (.node 0x996F3613CF (.node 0x996F3611CF (.leaf 0x18AE8) (.node 0x996F3612CF (.leaf 0x18AE9) (.leaf 0x18AEA))) (.node 0x996F370BCF (.node 0x996F3614CF (.leaf 0x18AEB) (.leaf 0x18AEC)) (.node 0x996F370CCF (.leaf 0x18AED) (.leaf 0x18AEE)))) (.node 0x99759AFC52 (.node 0x996F370FCF (.node 0x996F370ECF (.leaf 0x18AEF) (.leaf 0x18AF0)) (.node 0x996F3710CF (.leaf 0x18AF1) (.leaf 0x18AF2))) (.node 0x9975A1F552 (.node 0x99759AFD52 (.leaf 0x104DB) (.leaf 0x104D9)) (.node 0x9975A4F552 (.leaf 0x104E1) (.leaf 0x104E4))))) (.node 0x9975B3F552 (.node 0x9975A9F552 (.node 0x9975A6F552 (.leaf 0x104E7) (.node 0x9975A7F552 (.leaf 0x104E8) (.leaf 0x104E9))) (.node 0x9975ADF552 (.node 0x9975ACF552 (.leaf 0x104EC) (.leaf 0x104EE)) (.node 0x9975B0F552 (.leaf 0x104F0) (.leaf 0x104F7)))) (.node 0x99891218C7 (.node 0x9985A08EBE (.node 0x99849D6BE2 (.leaf 0x104FA) (.leaf 0x1810)) (.node 0x99880933F7 (.leaf 0x4F3) (.leaf 0x70C))) (.node 0x9991A70883 (.node 0x99916BE683 (.leaf 0x69D) (.leaf 0x513)) (.node 0x9997CF2C29 (.leaf 0x4C8) (.leaf 0x10886)))))
def nameTree_1227 : NameTree := .node 0x9A063F2ACC (.node 0x99F57D95CF (.node 0x99F4060340 (.node 0x99F3BA3A7D (.leaf 0x358) (.leaf 0x122BC)) (.node 0x99F4819D8B (.leaf 0x155B) (.leaf 0x33F1))) (.node 0x99FAC9A643 (.node 0x99F947CBFA (.leaf 0x16B5C) (.leaf 0x2585)) (.node 0x9A04046432 (.leaf 0x1F4EF) (.leaf 0x1F42)))) (.node 0x9A08101789 (.node 0x9A08101589 (.node 0x9A08101489 (.leaf 0x1F5AB) (.leaf 0x1F766)) (.node 0x9A08101689 (.leaf 0x1F767) (.leaf 0x1F768))) (.node 0x9A0FFEE47D (.node 0x9A08EBA048 (.leaf 0x1F769) (.leaf 0xA833)) (.node 0x9A10EA6182 (.leaf 0x2079) (.leaf 0x21B7))))
def nameTree_1228 : NameTree := .node 0x99F04924D0 (.node 0x99C85C6A69 (.node 0x99B0956124 (.node 0x999D0AF8EA (.leaf 0x1BC6A) (.node 0x99A83DA63E (.leaf 0x1F5DC) (.leaf 0x1088B))) (.node 0x99BDEE3FA0 (.node 0x99B225A7AE (.leaf 0xE43) (.leaf 0x115D7)) (.node 0x99C694AF80 (.leaf 0x1EC) (.leaf 0x1123D)))) (.node 0x99E15677C8 (.node 0x99DE060B40 (.node 0x99CD92E867 (.leaf 0x3169) (.leaf 0x3D2)) (.node 0x99E0F82C46 (.leaf 0x1554) (.leaf 0xA8F5))) (.node 0x99EC24CAB0 (.node 0x99E8D9AB83 (.leaf 0x120A7) (.leaf 0x4FD)) (.node 0x99EC9859FE (.leaf 0x1F863) (.leaf 0x83C))))) (nameTree_1227)
def nameTree_1229 : NameTree := .node 0x9A418CAB83 (.node 0x9A3256D0D9 (.node 0x9A3154D0D9 (.node 0x9A306BA93F (.leaf 0x145A0) (.leaf 0x2058)) (.node 0x9A3254D0D9 (.leaf 0x145A4) (.leaf 0x145AF))) (.node 0x9A403C2AB9 (.node 0x9A3259D0D9 (.leaf 0x145B2) (.leaf 0x145B6)) (.node 0x9A412FF51E (.leaf 0x2C6A) (.leaf 0xFD76)))) (.node 0x9A4D39550C (.node 0x9A44FAADE8 (.node 0x9A41C08EE4 (.leaf 0x4C4) (.leaf 0x1D0B3)) (.node 0x9A45A177FC (.leaf 0x1D194) (.leaf 0x27))) (.node 0x9A529BC9C1 (.node 0x9A4D9062F1 (.leaf 0xE0A) (.leaf 0x33ED)) (.node 0x9A532581B7 (.leaf 0x4FA) (.leaf 0x3010))))
def nameTree_1230 : NameTree := .node 0x9A305BD0D9 (.node 0x9A2D55D0D9 (.node 0x9A257460F9 (.node 0x9A1F57EF09 (.leaf 0x154F) (.node 0x9A221755B9 (.leaf 0x821) (.leaf 0x2C68))) (.node 0x9A2A5CD0D9 (.node 0x9A2920B730 (.leaf 0x3AA) (.leaf 0x267B)) (.node 0x9A2C5CD0D9 (.leaf 0x1455C) (.leaf 0x14571)))) (.node 0x9A2D59D1D9 (.node 0x9A2D55D2D9 (.node 0x9A2D55D1D9 (.leaf 0x14574) (.leaf 0x14575)) (.node 0x9A2D59D0D9 (.leaf 0x14576) (.leaf 0x1457B))) (.node 0x9A2F5CD0D9 (.node 0x9A2D59D2D9 (.leaf 0x1457C) (.leaf 0x1457D)) (.node 0x9A3057D0D9 (.leaf 0x14595) (.leaf 0x1459B))))) (nameTree_1229)
def nameTree_1231 : NameTree := .node 0x9A9F5290BC (.node 0x9A89C793A5 (.node 0x9A859D9796 (.node 0x9A84C69F22 (.leaf 0x194C) (.leaf 0x1948)) (.node 0x9A88380777 (.leaf 0x121F9) (.leaf 0x1D7D7))) (.node 0x9A95B0D031 (.node 0x9A90AD49EC (.leaf 0x1218E) (.leaf 0xFF3C)) (.node 0x9A9A3232DD (.leaf 0x12212) (.leaf 0x29B5)))) (.node 0x9ACD2DAEB4 (.node 0x9AB4C9F684 (.node 0x9AAD9CA2CA (.leaf 0x2758) (.leaf 0x2CCD)) (.node 0x9AB4D2DE72 (.leaf 0x10A42) (.leaf 0x1EB3))) (.node 0x9AD6F453B9 (.node 0x9AD207A7DF (.leaf 0x1F4A8) (.leaf 0x1D30C)) (.node 0x9AD8973B2D (.leaf 0x2C6C) (.leaf 0x20B1))))
def nameTree_1232 : NameTree := .node 0x9A83B8A822 (.node 0x9A799E12AA (.node 0x9A5E60FFB9 (.node 0x9A5BC09165 (.leaf 0xE09) (.node 0x9A5BE3908C (.leaf 0x277C) (.leaf 0xECB))) (.node 0x9A69A14BF1 (.node 0x9A6532C316 (.leaf 0xA791) (.leaf 0x12215)) (.node 0x9A74A41C5B (.leaf 0x1D95F) (.leaf 0x1F64A)))) (.node 0x9A7F7A7055 (.node 0x9A7BD25919 (.node 0x9A7AB43A6C (.leaf 0x122E8) (.leaf 0x1F395)) (.node 0x9A7DFBC2A5 (.leaf 0x16B50) (.leaf 0x100AB))) (.node 0x9A81800327 (.node 0x9A7FBD9522 (.leaf 0x2581) (.leaf 0x1947)) (.node 0x9A8333842D (.leaf 0xF88) (.leaf 0x1F334))))) (nameTree_1231)
def nameTree_1233 : NameTree := .node 0x9AE67AA8F9 (.node 0x9AE2AC59C1 (.node 0x9AE28C23D4 (.node 0x9ADEB11564 (.leaf 0x1231E) (.node 0x9ADF45CA96 (.leaf 0x1033D) (.leaf 0x10A7E))) (.node 0x9AE2AC4DC1 (.node 0x9AE2AC49C1 (.leaf 0x4B0) (.leaf 0x11A54)) (.node 0x9AE2AC53C1 (.leaf 0x11A51) (.leaf 0x11A55)))) (.node 0x9AE66CA8F9 (.node 0x9AE664A8F9 (.node 0x9AE39B1242 (.leaf 0x11A53) (.leaf 0xA839)) (.node 0x9AE664BCF9 (.leaf 0x16B1A) (.leaf 0x16B1B))) (.node 0x9AE678A8F9 (.node 0x9AE66CBCF9 (.leaf 0x16B0A) (.leaf 0x16B0B)) (.node 0x9AE678BCF9 (.leaf 0x16B04) (.leaf 0x16B05))))) (.node 0x9AEF97C948 (.node 0x9AEA68A8F9 (.node 0x9AE67ABCF9 (.leaf 0x16B0E) (.node 0x9AE9A466C0 (.leaf 0x16B0F) (.leaf 0x2EAE))) (.node 0x9AEE64A8F9 (.node 0x9AEA68BCF9 (.leaf 0x16B00) (.leaf 0x16B01)) (.node 0x9AEE64BCF9 (.leaf 0x16B14) (.leaf 0x16B15)))) (.node 0x9AF56F21FD (.node 0x9AF472BCF9 (.node 0x9AF472A8F9 (.leaf 0x80A) (.leaf 0x16B0C)) (.node 0x9AF56AE127 (.leaf 0x16B0D) (.leaf 0x32B))) (.node 0x9AF8C79DC3 (.node 0x9AF8326840 (.leaf 0x1F017) (.leaf 0x1F741)) (.node 0x9AF8DC9DC3 (.leaf 0xFB0) (.leaf 0xFA6)))))
def nameTree_1234 : NameTree := .node 0x9B04436544 (.node 0x9AFB48610F (.node 0x9AFA64A8F9 (.node 0x9AF971A8F3 (.leaf 0xFAF) (.leaf 0x2064)) (.node 0x9AFA64BCF9 (.leaf 0x16B10) (.leaf 0x16B11))) (.node 0x9B013177E0 (.node 0x9AFFC3510A (.leaf 0xA6C4) (.leaf 0x1F32C)) (.node 0x9B0208965C (.leaf 0x1011A) (.leaf 0x482)))) (.node 0x9B0813DE52 (.node 0x9B0813D652 (.node 0x9B059EACC2 (.leaf 0x109F2) (.leaf 0x22AC)) (.node 0x9B0813DA52 (.leaf 0x1522) (.leaf 0x1518))) (.node 0x9B0B7DC85E (.node 0x9B0813E452 (.leaf 0x151A) (.leaf 0x151E)) (.node 0x9B0F384E0F (.leaf 0xFBAF) (.leaf 0xA6BA))))
def nameTree_1235 : NameTree := .node 0x9AF8F49DC3 (.node 0x9AF8E79DC3 (.node 0x9AF8E29DC3 (.node 0x9AF8DE9DC3 (.leaf 0xF95) (.node 0x9AF8E19DC3 (.leaf 0xFA1) (.leaf 0xF92))) (.node 0x9AF8E59DC3 (.node 0x9AF8E49DC3 (.leaf 0xFB7) (.leaf 0xF97)) (.node 0x9AF8E69DC3 (.leaf 0xF90) (.leaf 0xFB3)))) (.node 0x9AF8ED9DC3 (.node 0x9AF8EA9DC3 (.node 0x9AF8E89DC3 (.leaf 0xFA8) (.leaf 0xFA3)) (.node 0x9AF8EC9DC3 (.leaf 0xFA4) (.leaf 0xFB2))) (.node 0x9AF8F19DC3 (.node 0x9AF8EE9DC3 (.leaf 0xFB6) (.leaf 0xF9F)) (.node 0x9AF8F39DC3 (.leaf 0xFAD) (.leaf 0xFB1))))) (nameTree_1234)
def nameTree_1236 : NameTree := .node 0x9B66A0D510 (.node 0x9B5C4E1ACD (.node 0x9B5AEE1457 (.node 0x9B56550E70 (.leaf 0x113D) (.leaf 0x108)) (.node 0x9B5BB3CB6A (.leaf 0x1DAD) (.leaf 0xFB5A))) (.node 0x9B654EF63D (.node 0x9B5E31F3CE (.leaf 0x1F7BF) (.leaf 0x201C)) (.node 0x9B658B58FC (.leaf 0x10C2E) (.leaf 0x3EC)))) (.node 0x9B6A934BC1 (.node 0x9B67356836 (.node 0x9B66BEB023 (.leaf 0x23C3) (.leaf 0x23F4)) (.node 0x9B6A934AC1 (.leaf 0x27FE) (.leaf 0x1DAA1))) (.node 0x9B6A934DC1 (.node 0x9B6A934CC1 (.leaf 0x1DAA2) (.leaf 0x1DAA3)) (.node 0x9B6A934EC1 (.leaf 0x1DAA4) (.leaf 0x1DAA5))))
def nameTree_1237 : NameTree := .node 0x9B4E743BC9 (.node 0x9B2F53D0D9 (.node 0x9B1797515E (.node 0x9B1705DE52 (.leaf 0x1503) (.node 0x9B170BE452 (.leaf 0x14FB) (.leaf 0x14FF))) (.node 0x9B1B81508A (.node 0x9B1AC894F5 (.leaf 0xA881) (.leaf 0xFF62)) (.node 0x9B2EA9F899 (.leaf 0x1237E) (.leaf 0x28)))) (.node 0x9B41BBF8AD (.node 0x9B3D66CE5E (.node 0x9B2F5AD0D9 (.leaf 0x145F8) (.leaf 0x14600)) (.node 0x9B413AB5C7 (.leaf 0x2A1C) (.leaf 0x35B))) (.node 0x9B4A75D89A (.node 0x9B434B2AFC (.leaf 0x120AC) (.leaf 0xDAA)) (.node 0x9B4AFF0B3C (.leaf 0x3007) (.leaf 0x21DD))))) (nameTree_1236)
def nameTree_1238 : NameTree := .node 0x9BCFA9DDD1 (.node 0x9BAAFEDFDD (.node 0x9B9C149911 (.node 0x9B9C0B9811 (.leaf 0x1E35) (.leaf 0xAA76)) (.node 0x9BA9F2EDED (.leaf 0xAA75) (.leaf 0x1F52E))) (.node 0x9BCD098FBD (.node 0x9BB8E96FE5 (.leaf 0x4DE3) (.leaf 0x2283)) (.node 0x9BCFA9DCD1 (.leaf 0x3FC) (.leaf 0x102C8)))) (.node 0x9BD92DF08F (.node 0x9BD60976E7 (.node 0x9BCFA9FFD1 (.leaf 0x102D0) (.leaf 0x102BB)) (.node 0x9BD870940B (.leaf 0xFEB3) (.leaf 0x4BF))) (.node 0x9BDB3C73AE (.node 0x9BD9933D69 (.leaf 0x11AEC) (.leaf 0x3B)) (.node 0x9BDB406AAE (.leaf 0xA555) (.leaf 0xA509))))
def nameTree_1239 : NameTree := .node 0x9B90CA7A41 (.node 0x9B7F8BF5DE (.node 0x9B6FD599C4 (.node 0x9B6A9350C1 (.leaf 0x1DAA6) (.node 0x9B6A9351C1 (.leaf 0x1DAA7) (.leaf 0x1DAA8))) (.node 0x9B7C8A4596 (.node 0x9B79BAA9EE (.leaf 0x12179) (.leaf 0x1F47D)) (.node 0x9B7E83B432 (.leaf 0x12252) (.leaf 0x1BC)))) (.node 0x9B8BA0B7B4 (.node 0x9B85056DD4 (.node 0x9B83113AFE (.leaf 0x122AB) (.leaf 0x2400)) (.node 0x9B8B9E02AA (.leaf 0x1E949) (.leaf 0x12230))) (.node 0x9B8BC5EAD3 (.node 0x9B8BBCEC86 (.leaf 0x26A9) (.leaf 0x1D760)) (.node 0x9B8EC8EC2F (.leaf 0x1D758) (.leaf 0x1D75F))))) (nameTree_1238)
def nameTree_1240 : NameTree := .node 0x9BF2E0813D (.node 0x9BE6CC9C09 (.node 0x9BDC70A2F2 (.node 0x9BDB4A74AE (.leaf 0xA5ED) (.node 0x9BDBFC9B33 (.leaf 0xA57A) (.leaf 0xAB38))) (.node 0x9BE0CD8F09 (.node 0x9BDE41F76E (.leaf 0x10872) (.leaf 0x2744)) (.node 0x9BE41061D2 (.leaf 0x112F5) (.leaf 0xF33)))) (.node 0x9BEE1DFC4D (.node 0x9BE9620DEB (.node 0x9BE94CFD2D (.leaf 0x112F4) (.leaf 0x215C)) (.node 0x9BEE1DF24D (.leaf 0x29C7) (.leaf 0xAC5))) (.node 0x9BF171AE53 (.node 0x9BEF4452A9 (.leaf 0xAC9) (.leaf 0x1F633)) (.node 0x9BF2BEDBB0 (.leaf 0x10866) (.leaf 0x1F020))))) (.node 0x9BFBBD0A07 (.node 0x9BF707F2EF (.node 0x9BF2E87D3D (.leaf 0x10BD) (.node 0x9BF707EEEF (.leaf 0x10B9) (.leaf 0x1820))) (.node 0x9BF707FCEF (.node 0x9BF707F6EF (.leaf 0x1821) (.leaf 0x1822)) (.node 0x9BF70802EF (.leaf 0x1823) (.leaf 0x1824)))) (.node 0x9C128C7ECD (.node 0x9C0DE5B248 (.node 0x9BFC4ABDE8 (.leaf 0x2132) (.leaf 0x1040)) (.node 0x9C0F931DAB (.leaf 0x2BB0) (.leaf 0x1961))) (.node 0x9C1705DE52 (.node 0x9C16FDD652 (.leaf 0xAA74) (.leaf 0x1464)) (.node 0x9C170BE452 (.leaf 0x145C) (.leaf 0x1460)))))
def nameTree_1241 : NameTree := .node 0x9C805945D9 (.node 0x9C7CB7DC92 (.node 0x9C6DF0E8CA (.node 0x9C6D9ADD56 (.leaf 0xA979) (.leaf 0x1033F)) (.node 0x9C6EAF5303 (.leaf 0x215) (.leaf 0xFCB3))) (.node 0x9C804CC872 (.node 0x9C7E46C272 (.leaf 0xA965) (.leaf 0x18EC)) (.node 0x9C805897D9 (.leaf 0x18F1) (.leaf 0xE9D)))) (.node 0x9C893FB472 (.node 0x9C85CA9D27 (.node 0x9C805D02D9 (.leaf 0xEAE) (.leaf 0xE8A)) (.node 0x9C890D35CA (.leaf 0x1F59A) (.leaf 0x2536))) (.node 0x9C893FBC72 (.node 0x9C893FB872 (.leaf 0x159A) (.leaf 0x1597)) (.node 0x9C893FC272 (.leaf 0x1598) (.leaf 0x1599))))
def nameTree_1242 : NameTree := .node 0x9C63389A08 (.node 0x9C2FE36552 (.node 0x9C25FC0853 (.node 0x9C1F15D627 (.leaf 0x1D0E5) (.node 0x9C24DA9756 (.leaf 0x1E852) (.leaf 0x21B3))) (.node 0x9C2D079815 (.node 0x9C26AC7192 (.leaf 0x323A) (.leaf 0x2C02)) (.node 0x9C2D079E15 (.leaf 0x1BEB) (.leaf 0x1BED)))) (.node 0x9C540EAD7C (.node 0x9C426888F8 (.node 0x9C339126A2 (.leaf 0x25E3) (.leaf 0x2AB9)) (.node 0x9C4D71F49A (.leaf 0x103D0) (.leaf 0x1F7C6))) (.node 0x9C5C46B8BC (.node 0x9C576E5255 (.leaf 0x2987) (.leaf 0x109EB)) (.node 0x9C5C93A01F (.leaf 0x11061) (.leaf 0x102EB))))) (nameTree_1241)
def nameTree_1243 : NameTree := .node 0x9CB691E297 (.node 0x9CB691DD97 (.node 0x9CB691DB97 (.node 0x9CB691D997 (.leaf 0x36A) (.leaf 0x365)) (.node 0x9CB691DC97 (.leaf 0x1DDC) (.leaf 0x1DDD))) (.node 0x9CB691DF97 (.node 0x9CB691DE97 (.leaf 0x36B) (.leaf 0x1DE0)) (.node 0x9CB691E097 (.leaf 0x366) (.leaf 0x1DEE)))) (.node 0x9CB691E697 (.node 0x9CB691E497 (.node 0x9CB691E397 (.leaf 0x36C) (.leaf 0x1DE4)) (.node 0x9CB691E597 (.leaf 0x36D) (.leaf 0x367))) (.node 0x9CB691E897 (.node 0x9CB691E797 (.leaf 0x36E) (.leaf 0x1DF1)) (.node 0x9CB691EA97 (.leaf 0x36F) (.leaf 0x1DE6))))
def nameTree_1244 : NameTree := .node 0x9CB691D897 (.node 0x9CAF039C08 (.node 0x9CA054811F (.node 0x9C95BDC5A3 (.leaf 0xA709) (.node 0x9C98FCC84C (.leaf 0x1F4F6) (.leaf 0x2956))) (.node 0x9CA7EA3DB7 (.node 0x9CA7295BDF (.leaf 0xE44) (.leaf 0x1240C)) (.node 0x9CAA5FF5FD (.leaf 0x25F1) (.leaf 0xFDAE)))) (.node 0x9CB691D497 (.node 0x9CB691D297 (.node 0x9CB691D197 (.leaf 0x12211) (.leaf 0x363)) (.node 0x9CB691D397 (.leaf 0x1DE8) (.leaf 0x368))) (.node 0x9CB691D697 (.node 0x9CB691D597 (.leaf 0x369) (.leaf 0x364)) (.node 0x9CB691D797 (.leaf 0x1DEB) (.leaf 0x1DDA))))) (nameTree_1243)
def nameTree_1245 : NameTree := .node 0x9D0383FD86 (.node 0x9CF838570F (.node 0x9CF4D72B32 (.node 0x9CF4A7684A (.leaf 0x1FA1) (.leaf 0x1D926)) (.node 0x9CF8344A0F (.leaf 0x224B) (.leaf 0xA6E7))) (.node 0x9D00406880 (.node 0x9CFFFB7F91 (.leaf 0xA6E0) (.leaf 0x60)) (.node 0x9D012E26DE (.leaf 0x2C5A) (.leaf 0x16B7E)))) (.node 0x9D0AD286C2 (.node 0x9D044A7244 (.node 0x9D04446C44 (.leaf 0x33F2) (.leaf 0x11409)) (.node 0x9D04D379C2 (.leaf 0x11407) (.leaf 0x2174))) (.node 0x9D3AF3C4C8 (.node 0x9D3A46972D (.leaf 0x2173) (.leaf 0x2B)) (.node 0x9D3B7A4C51 (.leaf 0x3274) (.leaf 0x10A73))))
def nameTree_1246 : NameTree := .node 0x9CF35D96BB (.node 0x9CC911467B (.node 0x9CC0CB7213 (.node 0x9CBC0DB7D2 (.leaf 0x122C7) (.node 0x9CC0942AC8 (.leaf 0x1F8AA) (.leaf 0x3AD))) (.node 0x9CC5FA0903 (.node 0x9CC450D62D (.leaf 0xE003C) (.leaf 0xE0023)) (.node 0x9CC82E3B05 (.leaf 0x1F91E) (.leaf 0x32C0)))) (.node 0x9CD993CE10 (.node 0x9CD83797D6 (.node 0x9CD2FCA0D2 (.leaf 0x1543) (.leaf 0x1D28)) (.node 0x9CD98DCE10 (.leaf 0x2521) (.leaf 0x7A0))) (.node 0x9CDCD06987 (.node 0x9CD9F3A277 (.leaf 0x7A1) (.leaf 0xA900)) (.node 0x9CE82ED0C3 (.leaf 0x1F617) (.leaf 0x12492))))) (nameTree_1245)
def nameTree_1247 : NameTree := .node 0x9D7FB21658 (.node 0x9D6927808D (.node 0x9D45E12649 (.node 0x9D45547A67 (.leaf 0x1F7CB) (.node 0x9D45729F3C (.leaf 0xA797) (.leaf 0xAB34))) (.node 0x9D5D0D2008 (.node 0x9D57C088BC (.leaf 0xA753) (.leaf 0x2778)) (.node 0x9D68B4F517 (.leaf 0x12269) (.leaf 0xA86D)))) (.node 0x9D77635071 (.node 0x9D72E5E3B2 (.node 0x9D6BBBB5D6 (.leaf 0x2B4F) (.leaf 0x27AC)) (.node 0x9D75B0A016 (.leaf 0x1F614) (.leaf 0x2925))) (.node 0x9D7BB70358 (.node 0x9D7B90EC34 (.leaf 0x1F666) (.leaf 0x1D715)) (.node 0x9D7D05F1C9 (.leaf 0x1D7ED) (.leaf 0x29C3))))) (.node 0x9D8BF2288C (.node 0x9D8389E8C5 (.node 0x9D80C00D58 (.leaf 0x1D7F2) (.node 0x9D8363E542 (.leaf 0x1D7EE) (.leaf 0xA644))) (.node 0x9D88C794FB (.node 0x9D88246322 (.leaf 0x754) (.leaf 0x1D965)) (.node 0x9D88E95329 (.leaf 0x14C) (.leaf 0x2B46)))) (.node 0x9DA95AFC7D (.node 0x9DA23C5495 (.node 0x9D935CE542 (.leaf 0x124A2) (.leaf 0xA660)) (.node 0x9DA29D556D (.leaf 0x2A40) (.leaf 0x1D883))) (.node 0x9DB22CD13B (.node 0x9DACAF3668 (.leaf 0x1F8A5) (.leaf 0x329B)) (.node 0x9DBA6FDD0C (.leaf 0x23F6) (.leaf 0x2019)))))
def nameTree_1248 : NameTree := .node 0x9E01BFDB5A (.node 0x9DF70F22B3 (.node 0x9DECDF1709 (.node 0x9DEC9BDD1C (.leaf 0x18D5) (.leaf 0x2E80)) (.node 0x9DF45EA60F (.leaf 0x2BA1) (.leaf 0x1D113))) (.node 0x9DFD3A4A0F (.node 0x9DFA344A0F (.leaf 0x1D1A9) (.leaf 0xA6B1)) (.node 0x9E00384E0F (.leaf 0xA6D4) (.leaf 0xA6C6)))) (.node 0x9E0A0ED854 (.node 0x9E0916A2A4 (.node 0x9E090CD854 (.leaf 0x1F71D) (.leaf 0x427)) (.node 0x9E093B4A0F (.leaf 0x1F71E) (.leaf 0xA6C3))) (.node 0x9E0A1BD854 (.node 0x9E0A0F4E91 (.leaf 0x402) (.leaf 0xFE30)) (.node 0x9E0A1ED854 (.leaf 0xA680) (.leaf 0x405))))
def nameTree_1249 : NameTree := .node 0x9DDEE3EB42 (.node 0x9DD23D74AE (.node 0x9DCDEE2191 (.node 0x9DCD406AAE (.leaf 0xFD0F) (.node 0x9DCD4A74AE (.leaf 0xA508) (.leaf 0xA579))) (.node 0x9DD23D6AAE (.node 0x9DD23D66AE (.leaf 0x100C3) (.leaf 0xA556)) (.node 0x9DD23D6EAE (.leaf 0xA5EE) (.leaf 0xA52F)))) (.node 0x9DDEE3E442 (.node 0x9DDEE3DA42 (.node 0x9DD23D7AAE (.leaf 0xA5C6) (.leaf 0xA5A0)) (.node 0x9DDEE3E242 (.leaf 0x18D7) (.leaf 0x18D6))) (.node 0x9DDEE3E742 (.node 0x9DDEE3E542 (.leaf 0x18D8) (.leaf 0x18D9)) (.node 0x9DDEE3EA42 (.leaf 0x18D4) (.leaf 0x18DA))))) (nameTree_1248)
def nameTree_1250 : NameTree := .node 0x9E32A3E6A4 (.node 0x9E200CD854 (.node 0x9E1F05D854 (.node 0x9E1A1BD854 (.leaf 0x426) (.leaf 0xA68C)) (.node 0x9E1F05E754 (.leaf 0x518) (.leaf 0x462))) (.node 0x9E25AB11DB (.node 0x9E25AB05DB (.leaf 0x416) (.leaf 0x1BC4D)) (.node 0x9E2AE6423E (.leaf 0x1BC56) (.leaf 0x1F925)))) (.node 0x9E432154C7 (.node 0x9E3E33C81E (.node 0x9E35F573F4 (.leaf 0x1F622) (.leaf 0x1D874)) (.node 0x9E3EBE5096 (.leaf 0x1DCF) (.leaf 0x1F602))) (.node 0x9E4CC392A3 (.node 0x9E4A43BFB5 (.leaf 0x12451) (.leaf 0x1EE22)) (.node 0x9E513FCD0E (.leaf 0x277D) (.leaf 0x1D9A3))))
def nameTree_1251 : NameTree := .node 0x9E1A17D854 (.node 0x9E1117DC54 (.node 0x9E0D0CD854 (.node 0x9E0A485E0F (.leaf 0xA6C7) (.node 0x9E0B344E0F (.leaf 0xA6EB) (.leaf 0xA6BC))) (.node 0x9E0E1BD854 (.node 0x9E0D0ED854 (.leaf 0x413) (.leaf 0x403)) (.node 0x9E110ED854 (.leaf 0xA694) (.leaf 0x40C)))) (.node 0x9E1617DC54 (.node 0x9E120ED854 (.node 0x9E120CD454 (.leaf 0x46E) (.leaf 0x514)) (.node 0x9E140ED854 (.leaf 0x409) (.leaf 0x40A))) (.node 0x9E190CD454 (.node 0x9E180CD454 (.leaf 0x470) (.leaf 0x516)) (.node 0x9E194CEB64 (.leaf 0x428) (.leaf 0x2EB))))) (nameTree_1250)
def nameTree_1252 : NameTree := .node 0x9E9111F689 (.node 0x9E9111EA75 (.node 0x9E8BAB8BE5 (.node 0x9E7F3D21F3 (.leaf 0x12442) (.leaf 0x12443)) (.node 0x9E90ED02FD (.leaf 0x1F4BB) (.leaf 0xF2A))) (.node 0x9E9111EE89 (.node 0x9E9111EE75 (.leaf 0xA05D) (.leaf 0xA05A)) (.node 0x9E9111F275 (.leaf 0xA07C) (.leaf 0xA05B)))) (.node 0x9E9B8020D4 (.node 0x9E95F60CFD (.node 0x9E94E815FD (.leaf 0xA07A) (.leaf 0xF2F)) (.node 0x9E964137CA (.leaf 0xF2B) (.leaf 0x137))) (.node 0x9E9D1BF275 (.node 0x9E9D1BEA75 (.leaf 0x1F53D) (.leaf 0xA064)) (.node 0x9E9D1EF275 (.leaf 0xA062) (.leaf 0xA070))))
def nameTree_1253 : NameTree := .node 0x9E7F3D20F3 (.node 0x9E644768A3 (.node 0x9E572577C7 (.node 0x9E528C01FA (.leaf 0x12057) (.node 0x9E568E825D (.leaf 0x2BA0) (.leaf 0x102F1))) (.node 0x9E61477FD7 (.node 0x9E5C031B10 (.leaf 0x12436) (.leaf 0x21B5)) (.node 0x9E644168A3 (.leaf 0x2A24) (.leaf 0x1A56)))) (.node 0x9E76F4322B (.node 0x9E6DC546A9 (.node 0x9E65189B42 (.leaf 0x1A55) (.leaf 0x1F907)) (.node 0x9E747A7B6E (.leaf 0x77E) (.leaf 0x2101))) (.node 0x9E7814CC47 (.node 0x9E771C6347 (.leaf 0xFC98) (.leaf 0xFC9B)) (.node 0x9E7C0EAEBB (.leaf 0xFC8E) (.leaf 0x169F5))))) (nameTree_1252)
def nameTree_1254 : NameTree := .node 0x9ED24274AE (.node 0x9EC16A5952 (.node 0x9EB22DA63E (.node 0x9EA11EF689 (.leaf 0xA089) (.node 0x9EA158E120 (.leaf 0xA08F) (.leaf 0x1F795))) (.node 0x9EC0125A65 (.node 0x9EBFB43168 (.leaf 0x1088D) (.leaf 0x32A5)) (.node 0x9EC06A70B3 (.leaf 0x302A) (.leaf 0x1D12C)))) (.node 0x9ED24073AE (.node 0x9ECF4A74AE (.node 0x9ECF406AAE (.leaf 0x1D891) (.leaf 0xA515)) (.node 0x9ED23C73AE (.leaf 0xA586) (.leaf 0xA54B))) (.node 0x9ED2426AAE (.node 0x9ED24266AE (.leaf 0xA5E3) (.leaf 0xA56C)) (.node 0x9ED2426EAE (.leaf 0xA604) (.leaf 0xA544))))) (.node 0x9ED6E453E7 (.node 0x9ED4CCB0FF (.node 0x9ED2427AAE (.leaf 0xA5DC) (.node 0x9ED24A73AE (.leaf 0xA5B5) (.leaf 0xA5BC))) (.node 0x9ED54A74AE (.node 0x9ED5406AAE (.leaf 0x1F44E) (.leaf 0xA51C)) (.node 0x9ED60C5A1D (.leaf 0xA58D) (.leaf 0x1D325)))) (.node 0x9EE4406AAE (.node 0x9EDE060B40 (.node 0x9EDDAB34A6 (.leaf 0x1235B) (.leaf 0x1B46)) (.node 0x9EE3A2A6A4 (.leaf 0x146C) (.leaf 0x1F4E9))) (.node 0x9EECC9A343 (.node 0x9EE44A74AE (.leaf 0xA523) (.leaf 0xA594)) (.node 0x9EF4060340 (.leaf 0x3012) (.leaf 0x1480)))))
def nameTree_1255 : NameTree := .node 0x9F4D3FBAB5 (.node 0x9F2E060153 (.node 0x9F26BA8192 (.node 0x9F26BA7592 (.leaf 0x2C21) (.leaf 0x2C20)) (.node 0x9F2E020153 (.leaf 0x2C1F) (.leaf 0x322B))) (.node 0x9F3CD14F1A (.node 0x9F34050E53 (.leaf 0x3224) (.leaf 0x3223)) (.node 0x9F470B8E24 (.leaf 0x2A2E) (.leaf 0x2A6B)))) (.node 0x9F50E0183C (.node 0x9F4FF99106 (.node 0x9F4F00CA70 (.leaf 0x1EE37) (.leaf 0x2B16)) (.node 0x9F50E016AB (.leaf 0x2B10) (.leaf 0x120DE))) (.node 0x9F552FD7C6 (.node 0x9F50E22F3C (.leaf 0x124C5) (.leaf 0x124C6)) (.node 0x9F5603C242 (.leaf 0x1D85B) (.leaf 0x1D09A))))
def nameTree_1256 : NameTree := .node 0x9F22BC7592 (.node 0x9EFCBA67E3 (.node 0x9EF6B2B24D (.node 0x9EF40E0B40 (.leaf 0x18B9) (.node 0x9EF4141140 (.leaf 0x1478) (.leaf 0x147C))) (.node 0x9EFCB167E3 (.node 0x9EFC3E7C80 (.leaf 0xE005E) (.leaf 0x2C48)) (.node 0x9EFCB667E3 (.leaf 0x104E5) (.leaf 0x104ED)))) (.node 0x9F11873EE6 (.node 0x9F06ACB9AC (.node 0x9EFCF3AE5D (.leaf 0x104F1) (.leaf 0x1361)) (.node 0x9F0D2B4EF1 (.leaf 0xA03) (.leaf 0x33EC))) (.node 0x9F16E2BD93 (.node 0x9F131237D8 (.leaf 0x12160) (.leaf 0x26D5)) (.node 0x9F208BF0B4 (.leaf 0x1932) (.leaf 0xA717))))) (nameTree_1255)
def nameTree_1257 : NameTree := .node 0x9FD28A6FCE (.node 0x9FAC717A39 (.node 0x9FAA56EED0 (.node 0x9F94F68E61 (.leaf 0x260D) (.leaf 0x1FE2)) (.node 0x9FABC7C69E (.leaf 0x1C7F) (.leaf 0x1F908))) (.node 0x9FB849417B (.node 0x9FB4F4611C (.leaf 0x1DA89) (.leaf 0x313A)) (.node 0x9FC01555F8 (.leaf 0x1939) (.leaf 0x1F585)))) (.node 0x9FDF7FBFDD (.node 0x9FDBCE20B9 (.node 0x9FD95E2CA0 (.leaf 0x114D7) (.leaf 0x12445)) (.node 0x9FDE060B40 (.leaf 0x1DF5) (.leaf 0x14D4))) (.node 0x9FE5060340 (.node 0x9FE22EC199 (.leaf 0x1940) (.leaf 0x20A7)) (.node 0x9FE50E0B40 (.leaf 0x15A5) (.leaf 0x15A1))))
def nameTree_1258 : NameTree := .node 0x9F944DC4DB (.node 0x9F7F9DF2AA (.node 0x9F60DEBEA8 (.node 0x9F5FAEFEAC (.leaf 0x2F3) (.node 0x9F5FD3F44C (.leaf 0x3005) (.leaf 0x1D044))) (.node 0x9F7C884CC1 (.node 0x9F6ADFFA59 (.leaf 0x102FA) (.leaf 0x253B)) (.node 0x9F7D2741C0 (.leaf 0x2EB4) (.leaf 0xA60D)))) (.node 0x9F848BED55 (.node 0x9F80DEAE70 (.node 0x9F7FC95C7F (.leaf 0x12231) (.leaf 0x29D9)) (.node 0x9F83D292C0 (.leaf 0x2AB2) (.leaf 0x26CC))) (.node 0x9F8D99FEAA (.node 0x9F8ACCE9CE (.leaf 0xFEFF) (.leaf 0x1D759)) (.node 0x9F9042981F (.leaf 0x12128) (.leaf 0x1F93))))) (nameTree_1257)
def nameTree_1259 : NameTree := .node 0xA03D24ED21 (.node 0xA01B59ACC4 (.node 0xA011346C80 (.node 0xA00B344E0F (.leaf 0x1F81D) (.leaf 0xA6D7)) (.node 0xA013DE100E (.leaf 0x2C39) (.leaf 0x1D73E))) (.node 0xA03A7DAFE0 (.node 0xA02EF99E5A (.leaf 0x2BB4) (.leaf 0x12473)) (.node 0xA03D17F32C (.leaf 0x1F94) (.leaf 0x22F2)))) (.node 0xA054B61D50 (.node 0xA04B266AC7 (.node 0xA03F71D74F (.leaf 0x1F439) (.leaf 0x1D90A)) (.node 0xA04CA0DD2D (.leaf 0x12408) (.leaf 0x238D))) (.node 0xA0592E1D50 (.node 0xA057761D50 (.leaf 0x3209) (.leaf 0x320A)) (.node 0xA05956F559 (.leaf 0x320C) (.leaf 0x1202E))))
def nameTree_1260 : NameTree := .node 0xA0014CCA1F (.node 0x9FF40E0B40 (.node 0x9FED69534A (.node 0x9FE6D5C669 (.leaf 0x15A3) (.node 0x9FEC9C7C21 (.leaf 0xFB74) (.leaf 0x2E93))) (.node 0x9FF2E07D3D (.node 0x9FED778F45 (.leaf 0x104E) (.leaf 0x4A5)) (.node 0x9FF4060340 (.leaf 0x10B6) (.leaf 0x14E8)))) (.node 0x9FFB48610F (.node 0x9FFA87A536 (.node 0x9FF4141140 (.leaf 0x14E0) (.leaf 0x14E4)) (.node 0x9FFAA9291C (.leaf 0x4B5) (.leaf 0x2E85))) (.node 0x9FFBA7818C (.node 0x9FFB9A2B82 (.leaf 0xA6C5) (.leaf 0x2EBD)) (.node 0x9FFDC915EC (.leaf 0x2EF1) (.leaf 0x141D))))) (nameTree_1259)
def nameTree_1261 : NameTree := .node 0xA09111EB23 (.node 0xA0809D44AA (.node 0xA06780C6E4 (.node 0xA05FA0418C (.leaf 0x320B) (.node 0xA060939B06 (.leaf 0x1246A) (.leaf 0x102EC))) (.node 0xA06C0728CD (.node 0xA06BA33318 (.leaf 0x3B6) (.leaf 0x34E)) (.node 0xA08087FDDE (.leaf 0x1DD3) (.leaf 0x120FD)))) (.node 0xA08D36C005 (.node 0xA0838957DE (.node 0xA081954396 (.leaf 0x121B5) (.leaf 0x121A8)) (.node 0xA089442B90 (.leaf 0x1219C) (.leaf 0xAA51))) (.node 0xA08DFDDC8E (.node 0xA08D3F3E90 (.leaf 0xFC69) (.leaf 0xAA56)) (.node 0xA08E4D3590 (.leaf 0x251A) (.leaf 0xAA52))))) (.node 0xA098114111 (.node 0xA094D3B378 (.node 0xA09111F323 (.leaf 0xA13C) (.node 0xA09111F689 (.leaf 0xA13A) (.leaf 0xA155))) (.node 0xA095FB4812 (.node 0xA095D3B378 (.leaf 0x11718) (.leaf 0x1170B)) (.node 0xA096D3B378 (.leaf 0x1D12F) (.leaf 0x11714)))) (.node 0xA09D1BF323 (.node 0xA09CD3B378 (.node 0xA099D3B378 (.leaf 0x2C30) (.leaf 0x11717)) (.node 0xA09D1BEB23 (.leaf 0x11719) (.leaf 0xA143))) (.node 0xA09D1EF689 (.node 0xA09D1EF323 (.leaf 0xA141) (.leaf 0xA14F)) (.node 0xA09DD3B378 (.leaf 0xA166) (.leaf 0x11701)))))
def nameTree_1262 : NameTree := .node 0xA0E4646414 (.node 0xA0D5933617 (.node 0xA0D403587E (.node 0xA0D38182EA (.leaf 0x2A47) (.leaf 0x1D117)) (.node 0xA0D503685F (.leaf 0x1D336) (.leaf 0x29B1))) (.node 0xA0DE060B40 (.node 0xA0D5D2611C (.leaf 0x27D8) (.leaf 0x3172)) (.node 0xA0DE9F0A26 (.leaf 0x14A4) (.leaf 0x1D899)))) (.node 0xA0F4141140 (.node 0xA0F4060340 (.node 0xA0E811AA33 (.leaf 0x1F62E) (.leaf 0x18F5)) (.node 0xA0F40E0B40 (.leaf 0x14B8) (.leaf 0x14B0))) (.node 0xA0FDB74916 (.node 0xA0F8130069 (.leaf 0x14B4) (.leaf 0x37A)) (.node 0xA107E183E9 (.leaf 0x2589) (.leaf 0x10BA9))))
def nameTree_1263 : NameTree := .node 0xA0BFDCF0E9 (.node 0xA0A9DA3EDD (.node 0xA0A6054111 (.node 0xA0A0E4B378 (.leaf 0x11702) (.node 0xA0A2D3B378 (.leaf 0x11710) (.leaf 0x11707))) (.node 0xA0A6D3B378 (.node 0xA0A60B4111 (.leaf 0x2C41) (.leaf 0x2C49)) (.node 0xA0A72CF2E8 (.leaf 0x1170C) (.leaf 0x3174)))) (.node 0xA0ACAAFA4C (.node 0xA0AB0A3511 (.node 0xA0A9FF2D11 (.leaf 0x2A61) (.leaf 0x2C4E)) (.node 0xA0AC024111 (.leaf 0x2C4C) (.leaf 0x2C46))) (.node 0xA0B8BB2AFC (.node 0xA0AF679724 (.leaf 0x111C0) (.leaf 0x1F82B)) (.node 0xA0BB911F6C (.leaf 0xDA8) (.leaf 0x1F10))))) (nameTree_1262)
def nameTree_1264 : NameTree := .node 0xA12BA35361 (.node 0xA125ECC843 (.node 0xA12406AEC9 (.node 0xA12206948F (.leaf 0x1142) (.leaf 0x2081)) (.node 0xA124B3F17B (.leaf 0x1D348) (.leaf 0xA718))) (.node 0xA126060153 (.node 0xA12601A78F (.leaf 0x27BC) (.leaf 0x2086)) (.node 0xA1270F9E8F (.leaf 0x3232) (.leaf 0x2082)))) (.node 0xA131C0489E (.node 0xA130238939 (.node 0xA130238439 (.leaf 0x1D039) (.leaf 0xAA4D)) (.node 0xA130CBC55D (.leaf 0xAA4C) (.leaf 0x40))) (.node 0xA14A43BFB5 (.node 0xA1489A7ECB (.leaf 0xF03) (.leaf 0x10E60)) (.node 0xA14C58CDCF (.leaf 0x1EE2C) (.leaf 0x1D960))))
def nameTree_1265 : NameTree := .node 0xA11CB71B5C (.node 0xA112C1B927 (.node 0xA10E576402 (.node 0xA10CEA8DE9 (.leaf 0x10BAD) (.node 0xA10DF87CE7 (.leaf 0x10BAA) (.leaf 0x20B))) (.node 0xA10FBEB7CB (.node 0xA10FB5B97E (.leaf 0x10842) (.leaf 0x1D77A)) (.node 0xA10FD5B076 (.leaf 0x1D772) (.leaf 0x1D31D)))) (.node 0xA119F104BB (.node 0xA11705DE52 (.node 0xA116FDD652 (.leaf 0x1D779) (.leaf 0x153C)) (.node 0xA1170BE452 (.leaf 0x1534) (.leaf 0x1538))) (.node 0xA11BEB1CF0 (.node 0xA11B187784 (.leaf 0x16914) (.leaf 0x2B4D)) (.node 0xA11C6C2A38 (.leaf 0x1FC9) (.leaf 0x1E01B))))) (nameTree_1264)
def nameTree_1266 : NameTree := .node 0xA19467736C (.node 0xA17E18A2B9 (.node 0xA17321878F (.node 0xA16E213AD2 (.leaf 0x836) (.leaf 0x29BB)) (.node 0xA17B8584D7 (.leaf 0x26D1) (.leaf 0x1203C))) (.node 0xA18032D779 (.node 0xA17F7C6A64 (.leaf 0x3164) (.leaf 0xABF7)) (.node 0xA1846C5A22 (.leaf 0x26EC) (.leaf 0xFE7D)))) (.node 0xA1B9AD7FC8 (.node 0xA1A97B2946 (.node 0xA1A0792782 (.leaf 0x29E9) (.leaf 0x2F1)) (.node 0xA1B08B1070 (.leaf 0x1D92B) (.leaf 0x118B))) (.node 0xA1BFDE23AD (.node 0xA1BAD104B0 (.leaf 0xCF1) (.leaf 0x2EA0)) (.node 0xA1C55EE3BD (.leaf 0x25A8) (.leaf 0x12539))))
def nameTree_1267 : NameTree := .node 0xA16702A216 (.node 0xA153E6D416 (.node 0xA14E7FFA03 (.node 0xA14DA388CB (.leaf 0x10E65) (.node 0xA14E7FF603 (.leaf 0x10E61) (.leaf 0xA8BE))) (.node 0xA14E800603 (.node 0xA14E800003 (.leaf 0xA8B6) (.leaf 0xA8C1)) (.node 0xA1534BC218 (.leaf 0xA8B8) (.leaf 0x4BC)))) (.node 0xA15F7CB5CB (.node 0xA154DF3F78 (.node 0xA1545DC218 (.leaf 0x2FA5) (.leaf 0x4E0)) (.node 0xA15E40922E (.leaf 0x1F33B) (.leaf 0x2A26))) (.node 0xA165F80E4A (.node 0xA15FF9014A (.leaf 0x2B54) (.leaf 0x1D7FB)) (.node 0xA16684D45F (.leaf 0x1D7FA) (.leaf 0x1BA6))))) (nameTree_1266)
def nameTree_1268 : NameTree := .node 0xA1EB0C0B40 (.node 0xA1E60099F9 (.node 0xA1E40E0B40 (.node 0xA1E4060B40 (.leaf 0x1594) (.leaf 0x1670)) (.node 0xA1E4141140 (.leaf 0x1590) (.leaf 0x1592))) (.node 0xA1E88973F4 (.node 0xA1E7D22E79 (.leaf 0x1D7C4) (.leaf 0x2689)) (.node 0xA1EB0C0340 (.leaf 0x1F580) (.leaf 0x1675)))) (.node 0xA1EF9E2B82 (.node 0xA1ED6F07B7 (.node 0xA1EB0C1140 (.leaf 0x1671) (.leaf 0x1673)) (.node 0xA1EF9CF45D (.leaf 0xFBE0) (.leaf 0x1B75))) (.node 0xA1F03F0790 (.node 0xA1EFB0F45D (.leaf 0x2E9F) (.leaf 0x1B74)) (.node 0xA1F4060340 (.leaf 0xA9D1) (.leaf 0x14CD))))
def nameTree_1269 : NameTree := .node 0xA1E4060340 (.node 0xA1DB31951A (.node 0xA1DB1D931A (.node 0xA1D635A31A (.leaf 0x2695) (.node 0xA1DB1D8B1A (.leaf 0x17AE) (.leaf 0x17A4))) (.node 0xA1DB1D9F1A (.node 0xA1DB1D9B1A (.leaf 0x17B0) (.leaf 0x17A3)) (.node 0xA1DB25931A (.leaf 0x17B3) (.leaf 0x17A6)))) (.node 0xA1DE060B40 (.node 0xA1DC35A31A (.node 0xA1DB319F1A (.leaf 0x17A8) (.leaf 0x17A9)) (.node 0xA1DCF3726F (.leaf 0x17AC) (.leaf 0xB74))) (.node 0xA1E190B7D3 (.node 0xA1E182B7D3 (.leaf 0x14C1) (.leaf 0x1D01)) (.node 0xA1E190C7D3 (.leaf 0x276) (.leaf 0x1D15))))) (nameTree_1268)
def nameTree_1270 : NameTree := .node 0xA26744E543 (.node 0xA2528A9227 (.node 0xA2397ECC92 (.node 0xA230CAB43E (.leaf 0x11448) (.leaf 0x2A23)) (.node 0xA25279C595 (.leaf 0xFFFA) (.leaf 0x1AB9))) (.node 0xA25CFBC106 (.node 0xA2544DC0B5 (.leaf 0xFBE2) (.leaf 0x1EE2D)) (.node 0xA26214D004 (.leaf 0x25EC) (.leaf 0x25AA)))) (.node 0xA2765F285E (.node 0xA26B794B58 (.node 0xA26893D987 (.leaf 0x1D8F7) (.leaf 0xDDB)) (.node 0xA26CC59C19 (.leaf 0x121B6) (.leaf 0xA798))) (.node 0xA282908C82 (.node 0xA27AA0183F (.leaf 0xFC7E) (.leaf 0x122DA)) (.node 0xA283CCEF3E (.leaf 0x1F0D7) (.leaf 0x1D75D))))
def nameTree_1271 : NameTree := .node 0xA22FFEF273 (.node 0xA1FF384E0F (.node 0xA1F5481190 (.node 0xA1F4141140 (.leaf 0x18C8) (.node 0xA1F43A1A90 (.leaf 0x18CC) (.leaf 0xA9D6))) (.node 0xA1F8377680 (.node 0xA1F7A9CB48 (.leaf 0xA9D2) (.leaf 0x813)) (.node 0xA1FB48610F (.leaf 0x2C3D) (.leaf 0xA6D0)))) (.node 0xA214644DEC (.node 0xA20326079F (.node 0xA2028B5B79 (.leaf 0xA6AD) (.leaf 0x2A5F)) (.node 0xA2108E63A8 (.leaf 0x1BF3) (.leaf 0x12185))) (.node 0xA2263504D9 (.node 0xA22172589B (.leaf 0x240B) (.leaf 0x10E7B)) (.node 0xA22AC3D64A (.leaf 0xAB5B) (.leaf 0x6BD))))) (nameTree_1270)
def nameTree_1272 : NameTree := .node 0xA2D8C73310 (.node 0xA2CC3D1D6F (.node 0xA2BCF62255 (.node 0xA2B92B4C18 (.leaf 0x1B67) (.leaf 0x1B69)) (.node 0xA2BDA8E7C0 (.leaf 0x20D6) (.leaf 0x1D9B9))) (.node 0xA2D10FE2E7 (.node 0xA2CE8A6725 (.leaf 0x11AA) (.leaf 0x114D3)) (.node 0xA2D83EDE2F (.leaf 0x1F44A) (.leaf 0x311)))) (.node 0xA2F697D148 (.node 0xA2F2E07D3D (.node 0xA2F22EC87C (.leaf 0x31D) (.leaf 0x300E)) (.node 0xA2F5C1828B (.leaf 0x10BF) (.leaf 0xD5A))) (.node 0xA2FE3C520F (.node 0xA2FB48610F (.leaf 0x814) (.leaf 0xA6B9)) (.node 0xA301DA2422 (.leaf 0xA6B6) (.leaf 0x4D3))))
def nameTree_1273 : NameTree := .node 0xA2B52B4C18 (.node 0xA28D869405 (.node 0xA28D7E9C05 (.node 0xA28B845B8B (.leaf 0x2B8C) (.node 0xA28D779C05 (.leaf 0x2AC1) (.leaf 0x2CAA))) (.node 0xA28D819C05 (.node 0xA28D7F9C05 (.leaf 0x2C98) (.leaf 0x2C9A)) (.node 0xA28D83A205 (.leaf 0x2CA0) (.leaf 0x2CA2)))) (.node 0xA29CC2A7CE (.node 0xA293DAF02B (.node 0xA28F21864C (.leaf 0x2CA8) (.leaf 0x32AF)) (.node 0xA29C375359 (.leaf 0x1D8E) (.leaf 0x1D97))) (.node 0xA2A0ED7DC5 (.node 0xA29D782C47 (.leaf 0xF6A) (.leaf 0xFE63)) (.node 0xA2A58B9679 (.leaf 0x1F54D) (.leaf 0xC81))))) (nameTree_1272)
def nameTree_1274 : NameTree := .node 0xA3385BA2CA (.node 0xA331E4E7CA (.node 0xA32F668F5F (.node 0xA32E67A2CA (.leaf 0x11A1C) (.leaf 0x11A25)) (.node 0xA33155A2CA (.leaf 0x1225B) (.leaf 0x11A0E))) (.node 0xA33555A2CA (.node 0xA333973269 (.leaf 0x22EB) (.leaf 0x303D)) (.node 0xA33854A2CA (.leaf 0x11A0C) (.leaf 0x11A0F)))) (.node 0xA33D55A2CA (.node 0xA3397CF255 (.node 0xA33866A2CA (.leaf 0x11A18) (.leaf 0x11A13)) (.node 0xA33A55A2CA (.leaf 0x262B) (.leaf 0x11A1F))) (.node 0xA33E55A2CA (.node 0xA33D60A2CA (.leaf 0x11A2E) (.leaf 0x11A2F)) (.node 0xA33E60A2CA (.leaf 0x11A1A) (.leaf 0x11A23))))
def nameTree_1275 : NameTree := .node 0xA32E55A2CA (.node 0xA32400C8C8 (.node 0xA307BC1E7D (.node 0xA304CD2BBF (.leaf 0x1F69B) (.node 0xA3074310CC (.leaf 0x2539) (.leaf 0x1E0E))) (.node 0xA30F64D02E (.node 0xA30CBD0503 (.leaf 0x1D897) (.leaf 0x1F5B1)) (.node 0xA31126A121 (.leaf 0x1F576) (.leaf 0x2444)))) (.node 0xA32C55A2CA (.node 0xA329843B9B (.node 0xA3295C2729 (.leaf 0x1D8DC) (.leaf 0x1241B)) (.node 0xA32A0B4022 (.leaf 0x19E) (.leaf 0x4ED))) (.node 0xA32D55A2CA (.node 0xA32C87446E (.leaf 0x11A21) (.leaf 0x1D012)) (.node 0xA32E51A2CA (.leaf 0x11A11) (.leaf 0x11A16))))) (nameTree_1274)
def nameTree_1276 : NameTree := .node 0x9D4345D207 (.node 0x9ADB7AB636 (.node 0x996F3610CF (.node 0x996E3A0ECF (.node 0x996E370DCF (nameTree_1219) (nameTree_1221)) (.node 0x996F330FCF (nameTree_1223) (nameTree_1225))) (.node 0x9A16FDD652 (.node 0x999C91D771 (nameTree_1226) (nameTree_1228)) (.node 0x9A5539550C (nameTree_1230) (nameTree_1232)))) (.node 0x9BDB4073AE (.node 0x9B16FDD652 (.node 0x9AF8DD9DC3 (nameTree_1233) (nameTree_1235)) (.node 0x9B6A934FC1 (nameTree_1237) (nameTree_1239))) (.node 0x9C8B41A037 (.node 0x9C1DF41860 (nameTree_1240) (nameTree_1242)) (.node 0x9CB92B158C (nameTree_1244) (nameTree_1246))))) (.node 0xA05A8E1D50 (.node 0x9E9D1EF689 (.node 0x9E0A384E0F (.node 0x9DCB4FE4DF (nameTree_1247) (nameTree_1249)) (.node 0x9E5232A2B8 (nameTree_1251) (nameTree_1253))) (.node 0x9F5632AC94 (.node 0x9EF4061B40 (nameTree_1254) (nameTree_1256)) (.node 0x9FE5141140 (nameTree_1258) (nameTree_1260)))) (.node 0xA1CA92234C (.node 0xA10CD88CE9 (.node 0xA0A0D2B378 (nameTree_1261) (nameTree_1263)) (.node 0xA14C9591CB (nameTree_1265) (nameTree_1267))) (.node 0xA28721F1A9 (.node 0xA1F40E0B40 (nameTree_1269) (nameTree_1271)) (.node 0xA302B190B4 (nameTree_1273) (nameTree_1275)))))
def nameTree_1277 : NameTree := .node 0xA3703BD802 (.node 0xA3523C5C22 (.node 0xA3431FF96F (.node 0xA33FAF6C70 (.leaf 0x11A14) (.node 0xA341A598BD (.leaf 0x1FE4) (.leaf 0x9FA))) (.node 0xA34B182336 (.node 0xA34455A2CA (.leaf 0x103CE) (.leaf 0x11A27)) (.node 0xA35060787C (.leaf 0x1D0A0) (.leaf 0x8F7)))) (.node 0xA358E0E220 (.node 0xA3562B3EB5 (.node 0xA353AA0D28 (.leaf 0x4E5) (.leaf 0x2156)) (.node 0xA35780B6C5 (.leaf 0x2F23) (.leaf 0x612))) (.node 0xA367B52080 (.node 0xA3659273E4 (.leaf 0x2FA0) (.leaf 0x1F86E)) (.node 0xA36E7CE447 (.leaf 0x26D6) (.leaf 0x2180))))) (.node 0xA39111F428 (.node 0xA385C5EEE7 (.node 0xA372C3F5A3 (.leaf 0x2CB6) (.node 0xA38257D7CD (.leaf 0x3AE) (.leaf 0x2E0E))) (.node 0xA39111EC28 (.node 0xA38E860622 (.leaf 0x1D768) (.leaf 0x4E7)) (.node 0xA39111EE89 (.leaf 0xA219) (.leaf 0xA25F)))) (.node 0xA393CB7F12 (.node 0xA39111F689 (.node 0xA39111F632 (.leaf 0xA217) (.leaf 0xA230)) (.node 0xA3925ED128 (.leaf 0xA25D) (.leaf 0x38F))) (.node 0xA3982D210C (.node 0xA397922CCB (.leaf 0x317F) (.leaf 0x1D162)) (.node 0xA39B87D2DC (.leaf 0x110BC) (.leaf 0xFBA8)))))
def nameTree_1278 : NameTree := .node 0xA3D34A74AE (.node 0xA3CC8BA8F3 (.node 0xA3C446A6FC (.node 0xA3C38D710C (.leaf 0x16B5D) (.leaf 0x114D8)) (.node 0xA3CACFB022 (.leaf 0x241F) (.leaf 0x4F1))) (.node 0xA3D0036959 (.node 0xA3CDE1DDFD (.leaf 0x1B5E) (.leaf 0xAA2)) (.node 0xA3D3406AAE (.leaf 0x1F0D1) (.leaf 0xA517)))) (.node 0xA3D824B0A0 (.node 0xA3D81CB0A0 (.node 0xA3D81CA8A0 (.leaf 0xA588) (.leaf 0x116AD)) (.node 0xA3D81CBCA0 (.leaf 0x116B3) (.leaf 0x116B5))) (.node 0xA3DC1BBD12 (.node 0xA3D830BCA0 (.leaf 0x116AF) (.leaf 0x116B1)) (.node 0xA3DE060B40 (.leaf 0x12394) (.leaf 0x1430))))
def nameTree_1279 : NameTree := .node 0xA3B79BE5C4 (.node 0xA39D1EF428 (.node 0xA39D1BF289 (.node 0xA39D1BEE32 (.leaf 0xA221) (.node 0xA39D1BF028 (.leaf 0xA238) (.leaf 0xA21E))) (.node 0xA39D1BF632 (.node 0xA39D1BF428 (.leaf 0xA264) (.leaf 0xA21F)) (.node 0xA39D1BF689 (.leaf 0xA236) (.leaf 0xA265)))) (.node 0xA3A211420D (.node 0xA39F44002A (.node 0xA39D1EF632 (.leaf 0xA22E) (.leaf 0xA244)) (.node 0xA3A0911103 (.leaf 0xFE21) (.leaf 0x18C))) (.node 0xA3AC4EFF77 (.node 0xA3A7EE5579 (.leaf 0x1D0AA) (.leaf 0x1D975)) (.node 0xA3AFA656B7 (.leaf 0x1D07C) (.leaf 0xFFEB))))) (nameTree_1278)
def nameTree_1280 : NameTree := .node 0xA4116EE627 (.node 0xA409632B1E (.node 0xA406625DF8 (.node 0xA3F58C9855 (.leaf 0x18B6) (.leaf 0x2757)) (.node 0xA40894D4C4 (.leaf 0x10840) (.leaf 0x21B))) (.node 0xA40E31BC09 (.node 0xA409AD2FC6 (.leaf 0xA875) (.leaf 0x16834)) (.node 0xA40E8A366A (.leaf 0x21C6) (.leaf 0x1F5AC)))) (.node 0xA41C537FCF (.node 0xA4195C2E38 (.node 0xA4190A6775 (.leaf 0x10133) (.leaf 0x20D5)) (.node 0xA41BD1BFE4 (.leaf 0x1E002) (.leaf 0x1C4))) (.node 0xA41DE1B10E (.node 0xA41DE1937D (.leaf 0x1EE2) (.leaf 0x2673)) (.node 0xA41DE1CE9F (.leaf 0x2674) (.leaf 0x2675))))
def nameTree_1281 : NameTree := .node 0xA3F4141B40 (.node 0xA3E56DA5DE (.node 0xA3E1E8BF21 (.node 0xA3E0C58F09 (.leaf 0xA71A) (.node 0xA3E1E8B86E (.leaf 0x112F9) (.leaf 0xFFB0))) (.node 0xA3E2206DBB (.node 0xA3E1E8C326 (.leaf 0xFFAB) (.leaf 0xFFAC)) (.node 0xA3E220746E (.leaf 0xFFA5) (.leaf 0xFFA6)))) (.node 0xA3F2E0813D (.node 0xA3EE974D2D (.node 0xA3E7C37BCB (.leaf 0x10862) (.leaf 0xFE76)) (.node 0xA3EF97C948 (.leaf 0x1F3D6) (.leaf 0x815))) (.node 0xA3F40E0B40 (.node 0xA3F4060340 (.leaf 0x10B5) (.leaf 0x1446)) (.node 0xA3F4141140 (.leaf 0x143E) (.leaf 0x1442))))) (nameTree_1280)
def nameTree_1282 : NameTree := .node 0xA4998F4532 (.node 0xA490ECA11C (.node 0xA46CF903B8 (.node 0xA46CED118B (.leaf 0x1BC75) (.leaf 0x1685F)) (.node 0xA47B7C61BB (.leaf 0x21F2) (.leaf 0xABF3))) (.node 0xA4939D7910 (.node 0xA4911A5AAA (.leaf 0xA757) (.leaf 0x227C)) (.node 0xA4981B398C (.leaf 0xA795) (.leaf 0x166E)))) (.node 0xA49D1BF03C (.node 0xA49D1BEACC (.node 0xA49BEE0A38 (.leaf 0x1801) (.leaf 0x11A45)) (.node 0xA49D1BEECC (.leaf 0xA368) (.leaf 0xA365))) (.node 0xA49D1BF2CC (.node 0xA49D1BF29D (.leaf 0xA3B1) (.leaf 0xA34C)) (.node 0xA49D1BF83C (.leaf 0xA366) (.leaf 0xA3AF))))
def nameTree_1283 : NameTree := .node 0xA4679833FB (.node 0xA43048B804 (.node 0xA41DE244E3 (.node 0xA41DE209C1 (.leaf 0x2676) (.node 0xA41DE22752 (.leaf 0x2677) (.leaf 0x2678))) (.node 0xA4239A5DD9 (.node 0xA421BBDD8E (.leaf 0x2679) (.leaf 0x1E4C)) (.node 0xA42DA696C8 (.leaf 0x23ED) (.leaf 0x10899)))) (.node 0xA442A7A229 (.node 0xA43EEDD79B (.node 0xA43B72CD00 (.leaf 0xFD1F) (.leaf 0x1F839)) (.node 0xA4405AE67F (.leaf 0xFD00) (.leaf 0xFE5B))) (.node 0xA45670FC2E (.node 0xA44AABB628 (.leaf 0x10889) (.leaf 0x298D)) (.node 0xA45DD9D5BA (.leaf 0x1D8C0) (.leaf 0x2F20))))) (nameTree_1282)
def nameTree_1284 : NameTree := .node 0xA4DE060B40 (.node 0xA4A806D655 (.node 0xA49D1EFA9D (.node 0xA49D1EF2CC (.leaf 0xA34A) (.node 0xA49D1EF83C (.leaf 0xA374) (.leaf 0xA3BE))) (.node 0xA4A11EF83C (.node 0xA4A11EF2CC (.leaf 0xA359) (.leaf 0xA37A)) (.node 0xA4A11EFA9D (.leaf 0xA3C4) (.leaf 0xA35F)))) (.node 0xA4C36EC43B (.node 0xA4BC9421D1 (.node 0xA4B25F2885 (.leaf 0x1F47A) (.leaf 0x1F449)) (.node 0xA4C076FB14 (.leaf 0x1F394) (.leaf 0x119D))) (.node 0xA4D34A74AE (.node 0xA4D3406AAE (.leaf 0x730) (.leaf 0xA50F)) (.node 0xA4D4FF968E (.leaf 0xA580) (.leaf 0x2AB0))))) (.node 0xA507BCB342 (.node 0xA4F8E2AA8C (.node 0xA4E8CB6789 (.leaf 0x157E) (.node 0xA4EBB48AB4 (.leaf 0x115CB) (.leaf 0x16853))) (.node 0xA504CB79C2 (.node 0xA4FCCBDE21 (.leaf 0x1F5D1) (.leaf 0x1D9B7)) (.node 0xA5077311DB (.leaf 0x2178) (.leaf 0x115CC)))) (.node 0xA526627DD6 (.node 0xA50EC5B6C6 (.node 0xA50D414C78 (.leaf 0xFB5E) (.leaf 0x238E)) (.node 0xA516FD4791 (.leaf 0x1D773) (.leaf 0x1F4FF))) (.node 0xA5266285D6 (.node 0xA5266281D6 (.leaf 0x32D0) (.leaf 0x32D3)) (.node 0xA526628BD6 (.leaf 0x32D1) (.leaf 0x32D4)))))
def nameTree_1285 : NameTree := .node 0xA583837883 (.node 0xA5820F84E2 (.node 0xA577E6445F (.node 0xA5707F6BA2 (.leaf 0x1F53) (.leaf 0xABF8)) (.node 0xA57906231E (.leaf 0x1BA9) (.leaf 0x101F9))) (.node 0xA5828A865E (.node 0xA58255A3A6 (.leaf 0xFF15) (.leaf 0x1D76)) (.node 0xA58365E783 (.leaf 0xFBE9) (.leaf 0x4C6)))) (.node 0xA58C114C83 (.node 0xA5880E91E2 (.node 0xA583A10983 (.leaf 0x4CE) (.leaf 0x4CA)) (.node 0xA588B6C5F7 (.leaf 0xFF14) (.leaf 0x23D3))) (.node 0xA58FB42FAC (.node 0xA58E9F337F (.leaf 0x48F) (.leaf 0x11EB)) (.node 0xA59D117A41 (.leaf 0x10116) (.leaf 0x1E3B))))
def nameTree_1286 : NameTree := .node 0xA55F6F2F57 (.node 0xA53D956251 (.node 0xA52AEFCC84 (.node 0xA526AC3434 (.leaf 0x32D2) (.node 0xA527A90F75 (.leaf 0x8AC) (.leaf 0x1D00A))) (.node 0xA531F7E27E (.node 0xA52C92F46D (.leaf 0x223F) (.leaf 0xAB65)) (.node 0xA53D0F0B0B (.leaf 0x11036) (.leaf 0x1F75E)))) (.node 0xA55391915D (.node 0xA546DB185E (.node 0xA53D956E51 (.leaf 0xA3F) (.leaf 0xA41)) (.node 0xA54D7EDE6D (.leaf 0x257A) (.leaf 0x2F50))) (.node 0xA55ABE6615 (.node 0xA5577080C2 (.leaf 0x102F2) (.leaf 0x2E34)) (.node 0xA55BE81BBE (.leaf 0x2B43) (.leaf 0x1B5F))))) (nameTree_1285)
def nameTree_1287 : NameTree := .node 0xA5CC483EB3 (.node 0xA5B9EF34AC (.node 0xA5B64756B8 (.node 0xA5B63C56B8 (.leaf 0xA85A) (.leaf 0xA849)) (.node 0xA5B64856B8 (.leaf 0xA850) (.leaf 0xA869))) (.node 0xA5CAFA7C8E (.node 0xA5BC3C56B8 (.leaf 0x20EE) (.leaf 0xA854)) (.node 0xA5CC4042B3 (.leaf 0x224D) (.leaf 0x2D1D)))) (.node 0xA5D97D94D1 (.node 0xA5CFF999F3 (.node 0xA5CFEE0673 (.leaf 0x2D19) (.leaf 0x1F371)) (.node 0xA5D5FA4795 (.leaf 0x2B9F) (.leaf 0x2A6A))) (.node 0xA5DE060B40 (.node 0xA5DB0F732D (.leaf 0xFC15) (.leaf 0x1F48C)) (.node 0xA5DF5CB250 (.leaf 0x1545) (.leaf 0x111C6))))
def nameTree_1288 : NameTree := .node 0xA5B53C56B8 (.node 0xA5AD9AAEB6 (.node 0xA5A68FA2CA (.node 0xA5A63856B8 (.leaf 0xA845) (.node 0xA5A64E56B8 (.leaf 0xA86B) (.leaf 0xA852))) (.node 0xA5A98DC683 (.node 0xA5A93B56B8 (.leaf 0x2CC5) (.leaf 0xA865)) (.node 0xA5AD3C56B8 (.leaf 0x20A2) (.leaf 0xA841)))) (.node 0xA5B10B195A (.node 0xA5B04256B8 (.node 0xA5B03B56B8 (.leaf 0x111) (.leaf 0xA843)) (.node 0xA5B04D56B8 (.leaf 0xA86C) (.leaf 0xA847))) (.node 0xA5B4D27232 (.node 0xA5B23C56B8 (.leaf 0x115DB) (.leaf 0xA84D)) (.node 0xA5B4D29532 (.leaf 0x12415) (.leaf 0x1241E))))) (nameTree_1287)
def nameTree_1289 : NameTree := .node 0xA620E9F583 (.node 0xA61E3D715D (.node 0xA6186A0ADE (.node 0xA617662B3D (.leaf 0x2070) (.leaf 0x12429)) (.node 0xA619D99C17 (.leaf 0x1BFC) (.leaf 0x2282))) (.node 0xA61F3657C4 (.node 0xA61E4DCADA (.leaf 0x11AF2) (.leaf 0xFDA8)) (.node 0xA6203D4995 (.leaf 0x341) (.leaf 0x1F599)))) (.node 0xA64D598AD3 (.node 0xA63A0944A7 (.node 0xA633FF0A53 (.leaf 0x1D84B) (.leaf 0x322A)) (.node 0xA63F78766A (.leaf 0x2E31) (.leaf 0x772))) (.node 0xA653B52B3C (.node 0xA651AACED1 (.leaf 0x8F9) (.leaf 0x2154)) (.node 0xA6548FBCC5 (.leaf 0x1F542) (.leaf 0x29E3))))
def nameTree_1290 : NameTree := .node 0xA60C02EE7D (.node 0xA5F4060340 (.node 0xA5E6268C36 (.node 0xA5E4E9011C (.leaf 0x1D306) (.node 0xA5E6218464 (.leaf 0x1F0D6) (.leaf 0x1F892))) (.node 0xA5EEA1FD04 (.node 0xA5EBB576B4 (.leaf 0xFCCC) (.leaf 0x1688C)) (.node 0xA5F1E029D6 (.leaf 0x23F3) (.leaf 0x2034)))) (.node 0xA5FACC5AF5 (.node 0xA5F40E0B40 (.node 0xA5F40A0740 (.leaf 0x154E) (.leaf 0x18CE)) (.node 0xA5F4141140 (.leaf 0x18D0) (.leaf 0x18D2))) (.node 0xA602029572 (.node 0xA5FAD5A417 (.leaf 0x6A3) (.leaf 0x29C0)) (.node 0xA60416E503 (.leaf 0x1F0DA) (.leaf 0x1F0D2))))) (nameTree_1289)
def nameTree_1291 : NameTree := .node 0xA69111EE89 (.node 0xA6835755D3 (.node 0xA660367F00 (.node 0xA65CB62697 (.leaf 0x1D95D) (.node 0xA65D5F5E95 (.leaf 0xF68) (.leaf 0xA7A2))) (.node 0xA67CE13C03 (.node 0xA671413A10 (.leaf 0x1F595) (.leaf 0xFD9)) (.node 0xA681F4BF1F (.leaf 0x5A6) (.leaf 0x3359)))) (.node 0xA686FDC91F (.node 0xA685EFD21F (.node 0xA6843C1177 (.leaf 0x2B76) (.leaf 0x1D7CE)) (.node 0xA686EBC81F (.leaf 0x335E) (.leaf 0x3362))) (.node 0xA68F64CF1C (.node 0xA68EC0E8C9 (.leaf 0x335A) (.leaf 0x1D756)) (.node 0xA69111ED2D (.leaf 0x12522) (.leaf 0xA41F))))) (.node 0xA693A72333 (.node 0xA69111F52D (.node 0xA69111F12D (.leaf 0xA438) (.node 0xA69111F289 (.leaf 0xA41C) (.leaf 0xA435))) (.node 0xA6911F05EE (.node 0xA69111F689 (.leaf 0xA41D) (.leaf 0xA436)) (.node 0xA6929EFA6C (.leaf 0x166D) (.leaf 0x1D8FF)))) (.node 0xA69D1BF689 (.node 0xA69D1BED2D (.node 0xA699B518CF (.leaf 0x2CDB) (.leaf 0x1F0A5)) (.node 0xA69D1BF52D (.leaf 0xA422) (.leaf 0xA420))) (.node 0xA69D1EF689 (.node 0xA69D1EF52D (.leaf 0xA439) (.leaf 0xA42B)) (.node 0xA69DCA4045 (.leaf 0xA442) (.leaf 0x2FB1)))))
def nameTree_1292 : NameTree := .node 0xA6DA177F54 (.node 0xA6DA177B54 (.node 0xA6DA177954 (.node 0xA6DA177854 (.leaf 0x1D63E) (.leaf 0x1D63F)) (.node 0xA6DA177A54 (.leaf 0x1D640) (.leaf 0x1D641))) (.node 0xA6DA177D54 (.node 0xA6DA177C54 (.leaf 0x1D642) (.leaf 0x1D643)) (.node 0xA6DA177E54 (.leaf 0x1D644) (.leaf 0x1D645)))) (.node 0xA6DA178354 (.node 0xA6DA178154 (.node 0xA6DA178054 (.leaf 0x1D646) (.leaf 0x1D647)) (.node 0xA6DA178254 (.leaf 0x1D648) (.leaf 0x1D649))) (.node 0xA6DA178554 (.node 0xA6DA178454 (.leaf 0x1D64A) (.leaf 0x1D64B)) (.node 0xA6DA178654 (.leaf 0x1D64C) (.leaf 0x1D64D))))
def nameTree_1293 : NameTree := .node 0xA6DA177754 (.node 0xA6A7C05812 (.node 0xA6A11EF689 (.node 0xA6A0106BF3 (.leaf 0x1215B) (.node 0xA6A0566AF8 (.leaf 0x1237F) (.leaf 0x1D15F))) (.node 0xA6A5151FD0 (.node 0xA6A40D0A19 (.leaf 0xA448) (.leaf 0x16F31)) (.node 0xA6A659419A (.leaf 0x5C2) (.leaf 0x1EB7)))) (.node 0xA6CE2D8A84 (.node 0xA6C52B4C18 (.node 0xA6B0E5EA25 (.leaf 0x1F0B5) (.leaf 0x277F)) (.node 0xA6C6775191 (.leaf 0x1B68) (.leaf 0x231F))) (.node 0xA6DA177554 (.node 0xA6D56FF520 (.leaf 0x233A) (.leaf 0x1DA4F)) (.node 0xA6DA177654 (.leaf 0x1D63C) (.leaf 0x1D63D))))) (nameTree_1292)
def nameTree_1294 : NameTree := .node 0xA6EE705EA6 (.node 0xA6E59E1E5F (.node 0xA6E51C0B40 (.node 0xA6E51C0740 (.leaf 0x1521) (.leaf 0x1517)) (.node 0xA6E51C1140 (.leaf 0x1519) (.leaf 0x151D))) (.node 0xA6EBB48AB4 (.node 0xA6E87C8F78 (.leaf 0xA4FF) (.leaf 0xFD20)) (.node 0xA6EBBA8AB4 (.leaf 0x168CD) (.leaf 0x168C3)))) (.node 0xA6F4141140 (.node 0xA6F4060340 (.node 0xA6F3722883 (.leaf 0x1D9BD) (.leaf 0x9D7)) (.node 0xA6F40E0B40 (.leaf 0x1502) (.leaf 0x14FA))) (.node 0xA6FD072E6C (.node 0xA6F51C7CE6 (.leaf 0x14FE) (.leaf 0x1F65E)) (.node 0xA70121F79E (.leaf 0xFF0D) (.leaf 0x1DA20))))
def nameTree_1295 : NameTree := .node 0xA6E51C0340 (.node 0xA6DA178E54 (.node 0xA6DA178A54 (.node 0xA6DA178854 (.leaf 0x1D64E) (.node 0xA6DA178954 (.leaf 0x1D64F) (.leaf 0x1D650))) (.node 0xA6DA178C54 (.node 0xA6DA178B54 (.leaf 0x1D651) (.leaf 0x1D652)) (.node 0xA6DA178D54 (.leaf 0x1D653) (.leaf 0x1D654)))) (.node 0xA6E5061B40 (.node 0xA6DE060B40 (.node 0xA6DD789FD4 (.leaf 0x1D655) (.leaf 0x10860)) (.node 0xA6E5060340 (.leaf 0x14EE) (.leaf 0x1516))) (.node 0xA6E5141140 (.node 0xA6E50E0B40 (.leaf 0x18C1) (.leaf 0x1512)) (.node 0xA6E5141B40 (.leaf 0x1514) (.leaf 0x18C0))))) (nameTree_1294)
def nameTree_1296 : NameTree := .node 0xA74AEAF00D (.node 0xA73DA0983D (.node 0xA72DFE0153 (.node 0xA72D2016C8 (.leaf 0x2C97) (.leaf 0x3260)) (.node 0xA732285AD3 (.leaf 0x3228) (.leaf 0xA9E6))) (.node 0xA7450BF894 (.node 0xA7418F3762 (.leaf 0x26AA) (.leaf 0xFD15)) (.node 0xA74A43C0B5 (.leaf 0x3F9) (.leaf 0x1EE2E)))) (.node 0xA755577DBE (.node 0xA752883D67 (.node 0xA75252F22A (.leaf 0x1D0C7) (.leaf 0x1D921)) (.node 0xA753843767 (.leaf 0x10A92) (.leaf 0x10A88))) (.node 0xA755803B67 (.node 0xA755803367 (.leaf 0xFB5C) (.leaf 0x10A93)) (.node 0xA756DB05F0 (.leaf 0x10A95) (.leaf 0x1144E))))
def nameTree_1297 : NameTree := .node 0xA72CE58C5B (.node 0xA7196A3E38 (.node 0xA7062D7D37 (.node 0xA705C6E395 (.leaf 0x12538) (.node 0xA705E0E260 (.leaf 0x11A43) (.leaf 0xAA5D))) (.node 0xA7156C3238 (.node 0xA7110AD61E (.leaf 0x2B08) (.leaf 0xF0E)) (.node 0xA7196A3238 (.leaf 0x1E021) (.leaf 0x1E020)))) (.node 0xA725BBFE67 (.node 0xA724E68AA8 (.node 0xA723DD89A3 (.leaf 0x1E01F) (.leaf 0x2C87)) (.node 0xA724E996BC (.leaf 0x2C85) (.leaf 0x2CC1))) (.node 0xA726F362BF (.node 0xA725FD0153 (.leaf 0x1F75F) (.leaf 0x3234)) (.node 0xA72CDD8B56 (.leaf 0x1F63D) (.leaf 0x2C93))))) (nameTree_1296)
def nameTree_1298 : NameTree := .node 0xA76B803767 (.node 0xA763843767 (.node 0xA759843767 (.node 0xA7597A0216 (.leaf 0x10A90) (.node 0xA759803767 (.leaf 0x1F3F3) (.leaf 0x10A82))) (.node 0xA75D803C67 (.node 0xA75C803567 (.leaf 0x10A80) (.leaf 0x10A8B)) (.node 0xA762803567 (.leaf 0x10A81) (.leaf 0x10A84)))) (.node 0xA765843767 (.node 0xA764803367 (.node 0xA7638B64F8 (.leaf 0x10A87) (.leaf 0x2BCC)) (.node 0xA765803767 (.leaf 0x10A8E) (.leaf 0x10A97))) (.node 0xA76A843767 (.node 0xA768804667 (.leaf 0x10A89) (.leaf 0x10A85)) (.node 0xA76AD75999 (.leaf 0x10A9A) (.leaf 0x1D92D))))) (.node 0xA78AD15D3D (.node 0xA776D8734F (.node 0xA76DC0EA47 (.leaf 0x10A9C) (.node 0xA76E1767E6 (.leaf 0x1F20) (.leaf 0xFDFB))) (.node 0xA785256A9B (.node 0xA783BFED8B (.leaf 0x16D5) (.leaf 0x1D76E)) (.node 0xA786C01020 (.leaf 0x1D99B) (.leaf 0x5D)))) (.node 0xA79FFC9605 (.node 0xA78D913BCB (.node 0xA78D5BC5CC (.leaf 0x256B) (.leaf 0x1F68)) (.node 0xA79640F171 (.leaf 0x1D140) (.leaf 0x1E11))) (.node 0xA7B320FACB (.node 0xA7AFD18CFB (.leaf 0xFB76) (.leaf 0xA4)) (.node 0xA7B38DD5A2 (.leaf 0x1F5F7) (.leaf 0x711)))))
def nameTree_1299 : NameTree := .node 0xA7E90D0B40 (.node 0xA7E51C0740 (.node 0xA7E5141140 (.node 0xA7E50E0B40 (.leaf 0x1567) (.leaf 0x1562)) (.node 0xA7E51C0340 (.leaf 0x1565) (.leaf 0x18E4))) (.node 0xA7E90D0340 (.node 0xA7E7D2D0CE (.leaf 0x18E3) (.leaf 0xAA0D)) (.node 0xA7E90D0740 (.leaf 0x1589) (.leaf 0x1586)))) (.node 0xA7EBB67EB4 (.node 0xA7EBB38AB4 (.node 0xA7E90D1140 (.leaf 0x1587) (.leaf 0x1588)) (.node 0xA7EBB58AB4 (.leaf 0x16949) (.leaf 0x16953))) (.node 0xA7EBBC7EB4 (.node 0xA7EBB68AB4 (.leaf 0x1695B) (.leaf 0x16957)) (.node 0xA7EBBC8AB4 (.leaf 0x16961) (.leaf 0x16911))))
def nameTree_1300 : NameTree := .node 0xA7E5060340 (.node 0xA7D3748E3A (.node 0xA7CD782CD0 (.node 0xA7BB32AC53 (.leaf 0x1F870) (.node 0xA7C067D692 (.leaf 0x2B09) (.leaf 0x731))) (.node 0xA7CFEFD798 (.node 0xA7CFD153C9 (.leaf 0x12487) (.leaf 0x1E951)) (.node 0xA7D04073AE (.leaf 0xFB8B) (.leaf 0xA504)))) (.node 0xA7DD3D5411 (.node 0xA7D4DA5DC9 (.node 0xA7D3CC66C9 (.leaf 0x1FC6) (.leaf 0x1E956)) (.node 0xA7DA4A73AE (.leaf 0x1E952) (.leaf 0xA575))) (.node 0xA7E2599788 (.node 0xA7DE060B40 (.leaf 0x2D0) (.leaf 0x144D)) (.node 0xA7E4CC5F10 (.leaf 0x1D1CB) (.leaf 0x1FBC))))) (nameTree_1299)
def nameTree_1301 : NameTree := .node 0xA81E497115 (.node 0xA81E477115 (.node 0xA8148D6880 (.node 0xA81302C822 (.leaf 0xE24) (.leaf 0x1F590)) (.node 0xA8164C03F1 (.leaf 0x110C1) (.leaf 0x2A74))) (.node 0xA81E478515 (.node 0xA81E477915 (.leaf 0x112B1) (.leaf 0x112B7)) (.node 0xA81E487115 (.leaf 0x112B9) (.leaf 0x112D4)))) (.node 0xA81E4F7915 (.node 0xA81E4D7115 (.node 0xA81E4A7115 (.leaf 0x112C0) (.leaf 0x112CF)) (.node 0xA81E4E7115 (.leaf 0x112BC) (.leaf 0x112DE))) (.node 0xA81E517115 (.node 0xA81E507115 (.leaf 0x112B3) (.leaf 0x112C2)) (.node 0xA81E527115 (.leaf 0x112BA) (.leaf 0x112DA))))
def nameTree_1302 : NameTree := .node 0xA810CF41B2 (.node 0xA7F40E0B40 (.node 0xA7F10D0740 (.node 0xA7EF758AEB (.leaf 0x2A5E) (.node 0xA7F10D0340 (.leaf 0x1F674) (.leaf 0x156E))) (.node 0xA7F10D1140 (.node 0xA7F10D0B40 (.leaf 0x156B) (.leaf 0x156C)) (.node 0xA7F4060340 (.leaf 0x156D) (.leaf 0x1463)))) (.node 0xA80C6478BF (.node 0xA801F06D4A (.node 0xA7F4141140 (.leaf 0x145B) (.leaf 0x145F)) (.node 0xA807C5BC36 (.leaf 0x653) (.leaf 0x1D777))) (.node 0xA8107D7B47 (.node 0xA80D6478BF (.leaf 0x1C18) (.leaf 0x1C4E)) (.node 0xA810C941B2 (.leaf 0x2AF4) (.leaf 0xE26))))) (nameTree_1301)
def nameTree_1303 : NameTree := .node 0xA86BC1C917 (.node 0xA84E7D26E2 (.node 0xA847281908 (.node 0xA841290C08 (.leaf 0x2FF0) (.leaf 0x11D55)) (.node 0xA84D43BAB5 (.leaf 0x11D54) (.leaf 0x1EE36))) (.node 0xA86022E211 (.node 0xA8558C85B5 (.leaf 0x3257) (.leaf 0x2F30)) (.node 0xA8684BE28B (.leaf 0x2F3A) (.leaf 0x16880)))) (.node 0xA87DF41A1D (.node 0xA8701ACD35 (.node 0xA86E297A78 (.leaf 0x2A30) (.leaf 0x240E)) (.node 0xA871F6BDF1 (.leaf 0x2800) (.leaf 0x16877))) (.node 0xA888CC65F5 (.node 0xA886AAEF4F (.leaf 0x8B7) (.leaf 0x1F0CB)) (.node 0xA888CD65F5 (.leaf 0xA705) (.leaf 0xA707))))
def nameTree_1304 : NameTree := .node 0xA83D45C894 (.node 0xA81E5C7115 (.node 0xA81E587115 (.node 0xA81E547115 (.leaf 0x112D7) (.node 0xA81E567115 (.leaf 0x112D1) (.leaf 0x112D2))) (.node 0xA81E5A7115 (.node 0xA81E597115 (.leaf 0x112D9) (.leaf 0x112DD)) (.node 0xA81E5B8515 (.leaf 0x112CD) (.leaf 0x112B5)))) (.node 0xA82F54CFEE (.node 0xA82C06FE77 (.node 0xA81E5F7115 (.leaf 0x112DB) (.leaf 0x112D8)) (.node 0xA82C5E6098 (.leaf 0xAB60) (.leaf 0x2E3C))) (.node 0xA838772817 (.node 0xA8314D1D94 (.leaf 0x22C9) (.leaf 0x22F0)) (.node 0xA83C864CF0 (.leaf 0x2712) (.leaf 0x10A75))))) (nameTree_1303)
def nameTree_1305 : NameTree := .node 0xA8A1490DC9 (.node 0xA89BC8CE4C (.node 0xA88F2E6CD0 (.node 0xA88AE92E7C (.leaf 0x1F6C9) (.node 0xA88B594B34 (.leaf 0xFCB5) (.leaf 0x1D347))) (.node 0xA89111F47F (.node 0xA89111EC7F (.leaf 0x1E000) (.leaf 0xA19D)) (.node 0xA891C82D48 (.leaf 0xA19B) (.leaf 0xFDB1)))) (.node 0xA89D1EF47F (.node 0xA89D1BEC7F (.node 0xA89C6A238A (.leaf 0x32A9) (.leaf 0x11A96)) (.node 0xA89D1BF47F (.leaf 0xA1A4) (.leaf 0xA1A2))) (.node 0xA8A11C58D0 (.node 0xA89D226CD0 (.leaf 0xA1AF) (.leaf 0x1E011)) (.node 0xA8A11EF47F (.leaf 0x1E01E) (.leaf 0xA1B5))))) (.node 0xA8AA2491EF (.node 0xA8A31F6CD0 (.node 0xA8A22760D0 (.leaf 0x1F852) (.node 0xA8A2DC9946 (.leaf 0x1E01C) (.leaf 0x1242C))) (.node 0xA8A5B975E3 (.node 0xA8A4388509 (.leaf 0x1E016) (.leaf 0x329C)) (.node 0xA8A5E9D895 (.leaf 0x1CD7) (.leaf 0x323D)))) (.node 0xA8B4E8EAD3 (.node 0xA8AEC2A75E (.node 0xA8ABEFDFCA (.leaf 0x252C) (.leaf 0xFDB5)) (.node 0xA8B1A35E07 (.leaf 0x1D109) (.leaf 0xAA69))) (.node 0xA8C0966C70 (.node 0xA8C07EC0AB (.leaf 0x323F) (.leaf 0x1D30B)) (.node 0xA8C441587F (.leaf 0x4F2) (.leaf 0x1F616)))))
def nameTree_1306 : NameTree := .node 0xA8EBB57EB4 (.node 0xA8EBB37EB4 (.node 0xA8E7B43136 (.node 0xA8E341D477 (.leaf 0x1BE) (.leaf 0xFC54)) (.node 0xA8EBAE76B4 (.leaf 0x12052) (.leaf 0x169BB))) (.node 0xA8EBB48AB4 (.node 0xA8EBB384B4 (.leaf 0x169FE) (.leaf 0x169F9)) (.node 0xA8EBB576B4 (.leaf 0x169ED) (.leaf 0x169FB)))) (.node 0xA8EBB88AB4 (.node 0xA8EBB87EB4 (.node 0xA8EBB676B4 (.leaf 0x169EE) (.leaf 0x169F6)) (.node 0xA8EBB884B4 (.leaf 0x169F7) (.leaf 0x16998))) (.node 0xA8F1561338 (.node 0xA8F0D5D047 (.leaf 0x169A0) (.leaf 0x11048)) (.node 0xA8F2E0813D (.leaf 0x115D8) (.leaf 0x10B4))))
def nameTree_1307 : NameTree := .node 0xA8DF6F8983 (.node 0xA8D1C944B7 (.node 0xA8CACA44B7 (.node 0xA8C6CA44B7 (.leaf 0x1D18A) (.node 0xA8C7DC44B7 (.leaf 0xA4DB) (.leaf 0xA4DC))) (.node 0xA8CCC39363 (.node 0xA8CBCA44B7 (.leaf 0xA4ED) (.leaf 0xA4E8)) (.node 0xA8CECA44B7 (.leaf 0x268C) (.leaf 0xA4D8)))) (.node 0xA8D7D544B7 (.node 0xA8D6CA44B7 (.node 0xA8D3CA44B7 (.leaf 0xA4E5) (.leaf 0xA4D2)) (.node 0xA8D7CA44B7 (.leaf 0xA4EB) (.leaf 0xA4D5))) (.node 0xA8DCF1F071 (.node 0xA8DC10169E (.leaf 0xA4DD) (.leaf 0x111C1)) (.node 0xA8DDCA44B7 (.leaf 0x1D0D0) (.leaf 0xA4E3))))) (nameTree_1306)
def nameTree_1308 : NameTree := .node 0xA903282A27 (.node 0xA903282627 (.node 0xA903282427 (.node 0xA903282327 (.leaf 0x1D5BC) (.leaf 0x1D5BD)) (.node 0xA903282527 (.leaf 0x1D5BE) (.leaf 0x1D5BF))) (.node 0xA903282827 (.node 0xA903282727 (.leaf 0x1D5C0) (.leaf 0x1D5C1)) (.node 0xA903282927 (.leaf 0x1D5C2) (.leaf 0x1D5C3)))) (.node 0xA903282E27 (.node 0xA903282C27 (.node 0xA903282B27 (.leaf 0x1D5C4) (.leaf 0x1D5C5)) (.node 0xA903282D27 (.leaf 0x1D5C6) (.leaf 0x1D5C7))) (.node 0xA903283027 (.node 0xA903282F27 (.leaf 0x1D5C8) (.leaf 0x1D5C9)) (.node 0xA903283127 (.leaf 0x1D5CA) (.leaf 0x1D5CB))))
def nameTree_1309 : NameTree := .node 0xA903282227 (.node 0xA8FE64DCDE (.node 0xA8FE59ECDE (.node 0xA8FA64DDDE (.leaf 0x10CC3) (.node 0xA8FE59E1DE (.leaf 0x10CC8) (.leaf 0x10CE9))) (.node 0xA8FE62F2DE (.node 0xA8FE5DF2DE (.leaf 0x10CC6) (.leaf 0x10CCE)) (.node 0xA8FE63E9DE (.leaf 0x10CD7) (.leaf 0x10CE1)))) (.node 0xA8FE6AF2DE (.node 0xA8FE64F2DE (.node 0xA8FE64EDDE (.leaf 0x10CC5) (.leaf 0x10CE7)) (.node 0xA8FE69F3DE (.leaf 0x10CDA) (.leaf 0x10CE5))) (.node 0xA903282027 (.node 0xA8FE70ECDE (.leaf 0x10CE8) (.leaf 0x10CF0)) (.node 0xA903282127 (.leaf 0x1D5BA) (.leaf 0x1D5BB))))) (nameTree_1308)
def nameTree_1310 : NameTree := .node 0xA95470E81B (.node 0xA93C8265F0 (.node 0xA93C7188C1 (.node 0xA930362EE6 (.leaf 0x1D008) (.leaf 0x1D954)) (.node 0xA93C7904F0 (.leaf 0x76E) (.leaf 0x10A61))) (.node 0xA94D89DCB0 (.node 0xA9489C1564 (.leaf 0x10A6F) (.leaf 0x3215)) (.node 0xA9540B7AFA (.leaf 0x10903) (.leaf 0xFDBD)))) (.node 0xA95872FB91 (.node 0xA956073454 (.node 0xA955738159 (.leaf 0x2F90) (.leaf 0x2F7B)) (.node 0xA9577D8159 (.leaf 0x1F0C4) (.leaf 0x2FB0))) (.node 0xA95DC0F293 (.node 0xA95C51CC48 (.leaf 0x1F7A0) (.leaf 0x169B9)) (.node 0xA95E57AABC (.leaf 0xFEC0) (.leaf 0xFEBC))))
def nameTree_1311 : NameTree := .node 0xA92DB0AD00 (.node 0xA903283927 (.node 0xA903283527 (.node 0xA903283327 (.leaf 0x1D5CC) (.node 0xA903283427 (.leaf 0x1D5CD) (.leaf 0x1D5CE))) (.node 0xA903283727 (.node 0xA903283627 (.leaf 0x1D5CF) (.leaf 0x1D5D0)) (.node 0xA903283827 (.leaf 0x1D5D1) (.leaf 0x1D5D2)))) (.node 0xA913B82036 (.node 0xA909BEBBDF (.node 0xA9085BDEDE (.leaf 0x1D5D3) (.leaf 0x10CDF)) (.node 0xA90E64E4DE (.leaf 0x1D782) (.leaf 0x10CD5))) (.node 0xA9245BC5E3 (.node 0xA91C0317B8 (.leaf 0x1115F) (.leaf 0x1F67E)) (.node 0xA925B88526 (.leaf 0x762) (.leaf 0x2D5))))) (nameTree_1310)
def nameTree_1312 : NameTree := .node 0xA99111EC7F (.node 0xA968470FC0 (.node 0xA95EDDE413 (.node 0xA95EDDDA13 (.leaf 0x11580) (.node 0xA95EDDDE13 (.leaf 0x1158A) (.leaf 0x11582))) (.node 0xA95FF1014A (.node 0xA95EDDEA13 (.leaf 0x1158C) (.leaf 0x11584)) (.node 0xA965E51BE2 (.leaf 0x1D7FF) (.leaf 0x169A2)))) (.node 0xA984BE4205 (.node 0xA97444CDE8 (.node 0xA96A02A0C4 (.leaf 0x1E027) (.leaf 0xFCDF)) (.node 0xA97FEA72A1 (.leaf 0x1D8CC) (.leaf 0x16DC))) (.node 0xA98D3679AC (.node 0xA9879031C2 (.leaf 0x1EA) (.leaf 0x124DC)) (.node 0xA9907C375F (.leaf 0xFC64) (.leaf 0x1F0B))))) (.node 0xA992F2D62B (.node 0xA992E6D72B (.node 0xA99111F47F (.leaf 0xA097) (.node 0xA991B333E9 (.leaf 0xA095) (.leaf 0x2C0))) (.node 0xA992EAD72B (.node 0xA992E7D12B (.leaf 0x10299) (.leaf 0x10283)) (.node 0xA992F0D42B (.leaf 0x1029A) (.leaf 0x10294)))) (.node 0xA999C7AABB (.node 0xA992F9D12B (.node 0xA992F3D72B (.leaf 0x10290) (.leaf 0x10291)) (.node 0xA992F9DD2B (.leaf 0x10289) (.leaf 0x10298))) (.node 0xA99D1BF47F (.node 0xA99D1BEC7F (.leaf 0x1C34) (.leaf 0xA09E)) (.node 0xA99D1EF47F (.leaf 0xA09C) (.leaf 0xA0A7)))))
def nameTree_1313 : NameTree := .node 0xA9EBB584B4 (.node 0xA9EBB38AB4 (.node 0xA9EBB376B4 (.node 0xA9EBAD7AB4 (.leaf 0x216A) (.leaf 0x16A06)) (.node 0xA9EBB384B4 (.leaf 0x16A03) (.leaf 0x16A2F))) (.node 0xA9EBB47EB4 (.node 0xA9EBB476B4 (.leaf 0x16A05) (.leaf 0x16A0A)) (.node 0xA9EBB576B4 (.leaf 0x16A2D) (.leaf 0x16A32)))) (.node 0xA9EBBB7EB4 (.node 0xA9EBB68AB4 (.node 0xA9EBB67EB4 (.leaf 0x16A33) (.leaf 0x16A24)) (.node 0xA9EBBA8AB4 (.leaf 0x16A19) (.leaf 0x16A23))) (.node 0xA9EBC176B4 (.node 0xA9EBBF76B4 (.leaf 0x16A14) (.leaf 0x16A2C)) (.node 0xA9EC91ECAA (.leaf 0x16A1D) (.leaf 0x2534))))
def nameTree_1314 : NameTree := .node 0xA9E9F59BC4 (.node 0xA9D612C68D (.node 0xA9C533604D (.node 0xA9A27F8FD2 (.leaf 0xA0AC) (.node 0xA9AA63CD20 (.leaf 0x2714) (.leaf 0x296B))) (.node 0xA9D3903040 (.node 0xA9CC403EB3 (.leaf 0x2120) (.leaf 0x2D16)) (.node 0xA9D392808E (.leaf 0x1F14) (.leaf 0xFD52)))) (.node 0xA9E00BAF81 (.node 0xA9DBC05183 (.node 0xA9DBA22CAE (.leaf 0x1D32A) (.leaf 0xFD84)) (.node 0xA9DE883F7E (.leaf 0xFDBC) (.leaf 0x1F453))) (.node 0xA9E5280E58 (.node 0xA9E267A20A (.leaf 0x216B) (.leaf 0x2023)) (.node 0xA9E6F6CF8B (.leaf 0x24FE) (.leaf 0x16C5))))) (nameTree_1313)
def nameTree_1315 : NameTree := .node 0xAA1B2171E9 (.node 0xAA1B2075E9 (.node 0xAA1B1F85E9 (.node 0xAA1B1F7FE9 (.leaf 0x10811) (.leaf 0x10812)) (.node 0xAA1B2071E9 (.leaf 0x10813) (.leaf 0x10814))) (.node 0xAA1B207FE9 (.node 0xAA1B2079E9 (.leaf 0x10815) (.leaf 0x10816)) (.node 0xAA1B2085E9 (.leaf 0x10817) (.leaf 0x10818)))) (.node 0xAA1B2185E9 (.node 0xAA1B2179E9 (.node 0xAA1B2175E9 (.leaf 0x10819) (.leaf 0x1081A)) (.node 0xAA1B217FE9 (.leaf 0x1081B) (.leaf 0x1081C))) (.node 0xAA1B2375E9 (.node 0xAA1B2371E9 (.leaf 0x1081D) (.leaf 0x1081E)) (.node 0xAA1B2379E9 (.leaf 0x1081F) (.leaf 0x10820))))
def nameTree_1316 : NameTree := .node 0xAA1B1F79E9 (.node 0xAA1B1D7FE9 (.node 0xAA0ABDC6B4 (.node 0xAA011249F7 (.leaf 0x2C4B) (.node 0xAA0488CBF2 (.leaf 0x1011E) (.leaf 0xFD9C))) (.node 0xAA1020AC83 (.node 0xAA0AF4D062 (.leaf 0x2C1) (.leaf 0x120A3)) (.node 0xAA1B1D71E9 (.leaf 0x1018B) (.leaf 0x10805)))) (.node 0xAA1B1E7FE9 (.node 0xAA1B1E75E9 (.node 0xAA1B1E71E9 (.leaf 0x10808) (.leaf 0x1080A)) (.node 0xAA1B1E79E9 (.leaf 0x1080B) (.leaf 0x1080C))) (.node 0xAA1B1F71E9 (.node 0xAA1B1E85E9 (.leaf 0x1080D) (.leaf 0x1080E)) (.node 0xAA1B1F75E9 (.leaf 0x1080F) (.leaf 0x10810))))) (nameTree_1315)
def nameTree_1317 : NameTree := .node 0xAA1B2D71E9 (.node 0xAA1B2A79E9 (.node 0xAA1B2A71E9 (.node 0xAA1B2785E9 (.leaf 0x10830) (.leaf 0x10831)) (.node 0xAA1B2A75E9 (.leaf 0x10832) (.leaf 0x10833))) (.node 0xAA1B2B71E9 (.node 0xAA1B2A7FE9 (.leaf 0x10834) (.leaf 0x10835)) (.node 0xAA1B2B75E9 (.leaf 0x10837) (.leaf 0x10838)))) (.node 0xAA2B55DF8E (.node 0xAA1B5ECEC8 (.node 0xAA1B2D7FE9 (.leaf 0x1083C) (.leaf 0x1083F)) (.node 0xAA24B3AA20 (.leaf 0x25A2) (.leaf 0x1D328))) (.node 0xAA360E9650 (.node 0xAA2B8F6910 (.leaf 0x1F567) (.leaf 0x12267)) (.node 0xAA3BAC0AF5 (.leaf 0xFD69) (.leaf 0x1F78F))))
def nameTree_1318 : NameTree := .node 0xAA1B277FE9 (.node 0xAA1B2671E9 (.node 0xAA1B2575E9 (.node 0xAA1B2385E9 (.leaf 0x10821) (.node 0xAA1B2571E9 (.leaf 0x10822) (.leaf 0x10823))) (.node 0xAA1B257FE9 (.node 0xAA1B2579E9 (.leaf 0x10824) (.leaf 0x10825)) (.node 0xAA1B2585E9 (.leaf 0x10826) (.leaf 0x10827)))) (.node 0xAA1B2685E9 (.node 0xAA1B2679E9 (.node 0xAA1B2675E9 (.leaf 0x10828) (.leaf 0x10829)) (.node 0xAA1B267FE9 (.leaf 0x1082A) (.leaf 0x1082B))) (.node 0xAA1B2775E9 (.node 0xAA1B2771E9 (.leaf 0x1082C) (.leaf 0x1082D)) (.node 0xAA1B2779E9 (.leaf 0x1082E) (.leaf 0x1082F))))) (nameTree_1317)
def nameTree_1319 : NameTree := .node 0xAA99331F4B (.node 0xAA8805F02D (.node 0xAA5A471720 (.node 0xAA516CA4EE (.leaf 0x1DA1A) (.node 0xAA5A1BC6F5 (.leaf 0x17D0) (.leaf 0x1D33F))) (.node 0xAA839ED350 (.node 0xAA5CF892F6 (.leaf 0x1D1E3) (.leaf 0x16881)) (.node 0xAA842D1842 (.leaf 0x2576) (.leaf 0x12324)))) (.node 0xAA9111F47F (.node 0xAA9111EC7F (.node 0xAA8B1B00FD (.leaf 0x1F726) (.leaf 0x168C0)) (.node 0xAA9111F07F (.leaf 0xA16F) (.leaf 0xA16C))) (.node 0xAA9933174B (.node 0xAA965579F8 (.leaf 0xA16D) (.leaf 0x1D13D)) (.node 0xAA99331B4B (.leaf 0x985) (.leaf 0x98F))))) (.node 0xAAA0106AF3 (.node 0xAA998020FD (.node 0xAA9933254B (.leaf 0x987) (.node 0xAA99332B4B (.leaf 0x993) (.leaf 0x989))) (.node 0xAA9D958CCC (.node 0xAA9D1BF47F (.leaf 0x700) (.leaf 0xA174)) (.node 0xAA9EE66D76 (.leaf 0x10CF1) (.leaf 0x1F61E)))) (.node 0xAACFF36666 (.node 0xAAB2E843ED (.node 0xAAA4C60FE4 (.leaf 0x12161) (.leaf 0xE003E)) (.node 0xAAC31F3CD2 (.leaf 0x26C4) (.leaf 0x27E8))) (.node 0xAAD34A74AE (.node 0xAAD3406AAE (.leaf 0x11D19) (.leaf 0xA519)) (.node 0xAAE0EB112F (.leaf 0xA58A) (.leaf 0x1014B)))))
def nameTree_1320 : NameTree := .node 0xAB599D82AB (.node 0xAB4D846EB9 (.node 0xAB4A7D1E39 (.node 0xAB4A64516F (.leaf 0xAAB0) (.leaf 0x2A1E)) (.node 0xAB4D1CC779 (.leaf 0x3253) (.leaf 0xAAB7))) (.node 0xAB53B397A9 (.node 0xAB51ECE211 (.leaf 0x1F0A3) (.leaf 0x2F1B)) (.node 0xAB53B3EEA9 (.leaf 0xFE31) (.leaf 0xFE32)))) (.node 0xAB71F4F63D (.node 0xAB626C2D08 (.node 0xAB5B8FADFC (.leaf 0x169D2) (.leaf 0x1F0B3)) (.node 0xAB6FED2293 (.leaf 0x1F958) (.leaf 0x16D7))) (.node 0xAB787E16B1 (.node 0xAB77F9F89E (.leaf 0x8E5) (.leaf 0x8E6)) (.node 0xAB78EFF6EB (.leaf 0x1D896) (.leaf 0x8E4))))
def nameTree_1321 : NameTree := .node 0xAB4621BA79 (.node 0xAB15532DC4 (.node 0xAAF49400BD (.node 0xAAE9D88619 (.leaf 0x112E9) (.node 0xAAECAE9D7D (.leaf 0x1D868) (.leaf 0x611))) (.node 0xAB0F1B32E2 (.node 0xAAF5E89C54 (.leaf 0x1D8DF) (.leaf 0x1DA5B)) (.node 0xAB12D17B19 (.leaf 0x1F89D) (.leaf 0x1EF0)))) (.node 0xAB23C366F8 (.node 0xAB19D5DE4D (.node 0xAB15652A12 (.leaf 0x29D5) (.leaf 0x27E2)) (.node 0xAB1ABB93C6 (.leaf 0x16AC) (.leaf 0x262A))) (.node 0xAB38DD64B1 (.node 0xAB2A031053 (.leaf 0xFBAA) (.leaf 0x3241)) (.node 0xAB43F7B61E (.leaf 0x2B4B) (.leaf 0x1F9E))))) (nameTree_1320)
def nameTree_1322 : NameTree := .node 0xAB9B6E4795 (.node 0xAB9B654B95 (.node 0xAB9B654295 (.node 0xAB9AEBED15 (.leaf 0x10CD) (.leaf 0x10A1)) (.node 0xAB9B654795 (.leaf 0x10C0C) (.leaf 0x10C10))) (.node 0xAB9B655495 (.node 0xAB9B654E95 (.leaf 0x10C1B) (.leaf 0x10C25)) (.node 0xAB9B655995 (.leaf 0x10C46) (.leaf 0x10C19)))) (.node 0xAB9CF9ED15 (.node 0xAB9BEBED15 (.node 0xAB9B734895 (.leaf 0x10C2C) (.leaf 0x10C40)) (.node 0xAB9BF3EB15 (.leaf 0x10BA) (.leaf 0x10BC))) (.node 0xAB9F6E5495 (.node 0xAB9F6E4395 (.leaf 0x10A3) (.leaf 0x10C29)) (.node 0xAB9F6E5995 (.leaf 0x10C27) (.leaf 0x10C2B))))
def nameTree_1323 : NameTree := .node 0xAB99EFED15 (.node 0xAB96F3D3F6 (.node 0xAB96DDD7F6 (.node 0xAB803B399C (.leaf 0x1D300) (.node 0xAB8675D1ED (.leaf 0xFBA7) (.leaf 0x1F0CF))) (.node 0xAB96E1E7F6 (.node 0xAB96E1E1F6 (.leaf 0x3150) (.leaf 0x3153)) (.node 0xAB96EBD7F6 (.leaf 0x3161) (.leaf 0x315A)))) (.node 0xAB96F5D7F6 (.node 0xAB96F3DBF6 (.node 0xAB96F3D7F6 (.leaf 0x3158) (.leaf 0x315E)) (.node 0xAB96F5D3F6 (.leaf 0x315F) (.leaf 0x3151))) (.node 0xAB96F5E1F6 (.node 0xAB96F5DBF6 (.leaf 0x3156) (.leaf 0x3162)) (.node 0xAB96F5E7F6 (.leaf 0x315B) (.leaf 0x3160))))) (nameTree_1322)
def nameTree_1324 : NameTree := .node 0xABAD90EC98 (.node 0xABAAEBE415 (.node 0xABA9654B95 (.node 0xABA8EBF115 (.leaf 0xFFEE) (.leaf 0x10AE)) (.node 0xABA9EBF115 (.leaf 0x10C1D) (.leaf 0x10B7))) (.node 0xABACEBED15 (.node 0xABABEBED15 (.leaf 0x10B0) (.leaf 0x10B1)) (.node 0xABACEBF115 (.leaf 0x10A7) (.leaf 0x10B2)))) (.node 0xABB2EFED15 (.node 0xABB0EBED15 (.node 0xABAEF3ED15 (.leaf 0x771) (.leaf 0x10A5)) (.node 0xABB18F3DCC (.leaf 0x10BE) (.leaf 0x1D83C))) (.node 0xABB63F9D8D (.node 0xABB57CCB55 (.leaf 0x10A6) (.leaf 0xDF2)) (.node 0xABC05B4972 (.leaf 0x1D88D) (.leaf 0xFC2E))))
def nameTree_1325 : NameTree := .node 0xABA8A61BB0 (.node 0xABA2CEB706 (.node 0xABA0EBF115 (.node 0xAB9FEBED15 (.leaf 0x10C42) (.node 0xABA0EBE415 (.leaf 0x10A2) (.leaf 0x10C0))) (.node 0xABA0F9E415 (.node 0xABA0F3E415 (.leaf 0x10C4) (.leaf 0x10C2)) (.node 0xABA28A3C6E (.leaf 0x10C5) (.leaf 0x2A75)))) (.node 0xABA4EBF215 (.node 0xABA3EBED15 (.node 0xABA2F3EB15 (.leaf 0x2488) (.leaf 0x10BB)) (.node 0xABA406A269 (.leaf 0x10A9) (.leaf 0x219C))) (.node 0xABA5EBED15 (.node 0xABA5AC9DF5 (.leaf 0x10AA) (.leaf 0x302D)) (.node 0xABA6EBF115 (.leaf 0x10AB) (.leaf 0x10AC))))) (nameTree_1324)
def nameTree_1326 : NameTree := .node 0xAC180C83B1 (.node 0xAC04529737 (.node 0xABF3DAA9A5 (.node 0xABF3DAA3A5 (.leaf 0x11151) (.leaf 0x11154)) (.node 0xABFE9C82DD (.leaf 0x11152) (.leaf 0x14BF))) (.node 0xAC10A90BEB (.node 0xAC0982A7BE (.leaf 0xF39) (.leaf 0x2A7C)) (.node 0xAC12B9B5C1 (.leaf 0x169E2) (.leaf 0x1D770)))) (.node 0xAC36A399B4 (.node 0xAC2BB19BD1 (.node 0xAC29FC0253 (.leaf 0x1012E) (.leaf 0x3242)) (.node 0xAC2EBECE71 (.leaf 0xFE60) (.leaf 0x22AB))) (.node 0xAC3F802820 (.node 0xAC39D17932 (.leaf 0x10884) (.leaf 0xA4FE)) (.node 0xAC402CC57C (.leaf 0x3258) (.leaf 0x1F23))))
def nameTree_1327 : NameTree := .node 0xABF3DA9DA5 (.node 0xABD4DD30D9 (.node 0xABD225E920 (.node 0xABC5F47AF3 (.leaf 0x11058) (.node 0xABD0CE90BF (.leaf 0x10B65) (.leaf 0x1D834))) (.node 0xABD2ED4853 (.node 0xABD25F365F (.leaf 0x168B3) (.leaf 0x202A)) (.node 0xABD4200CB3 (.leaf 0x25D5) (.leaf 0xFC4B)))) (.node 0xABE29D5A39 (.node 0xABDB5EF7C7 (.node 0xABD5FFAC8D (.leaf 0x1213C) (.leaf 0x1D320)) (.node 0xABE2006379 (.leaf 0x2256) (.leaf 0x1D335))) (.node 0xABF3DA95A5 (.node 0xABF2E87D3D (.leaf 0x1D332) (.leaf 0x10B8)) (.node 0xABF3DA99A5 (.leaf 0x11150) (.leaf 0x11153))))) (nameTree_1326)
def nameTree_1328 : NameTree := .node 0xAC4F46F4BD (.node 0xAC4F46F0BD (.node 0xAC4F46EEBD (.node 0xAC4F46EDBD (.leaf 0x49) (.leaf 0x4A)) (.node 0xAC4F46EFBD (.leaf 0x4B) (.leaf 0x4C))) (.node 0xAC4F46F2BD (.node 0xAC4F46F1BD (.leaf 0x4D) (.leaf 0x4E)) (.node 0xAC4F46F3BD (.leaf 0x4F) (.leaf 0x50)))) (.node 0xAC4F46F8BD (.node 0xAC4F46F6BD (.node 0xAC4F46F5BD (.leaf 0x51) (.leaf 0x52)) (.node 0xAC4F46F7BD (.leaf 0x53) (.leaf 0x54))) (.node 0xAC4F46FABD (.node 0xAC4F46F9BD (.leaf 0x55) (.leaf 0x56)) (.node 0xAC4F46FBBD (.leaf 0x57) (.leaf 0x58))))
def nameTree_1329 : NameTree := .node 0xAC4F46ECBD (.node 0xAC4F46E4BD (.node 0xAC498AD4B0 (.node 0xAC4275313F (.leaf 0x10B3D) (.node 0xAC462DE922 (.leaf 0x120D0) (.leaf 0x2068))) (.node 0xAC4B68BA82 (.node 0xAC4B5ABF82 (.leaf 0x10902) (.leaf 0xF3D)) (.node 0xAC4C808C38 (.leaf 0xF3C) (.leaf 0x1D342)))) (.node 0xAC4F46E8BD (.node 0xAC4F46E6BD (.node 0xAC4F46E5BD (.leaf 0x41) (.leaf 0x42)) (.node 0xAC4F46E7BD (.leaf 0x43) (.leaf 0x44))) (.node 0xAC4F46EABD (.node 0xAC4F46E9BD (.leaf 0x45) (.leaf 0x46)) (.node 0xAC4F46EBBD (.leaf 0x47) (.leaf 0x48))))) (nameTree_1328)
def nameTree_1330 : NameTree := .node 0xAC94A64E06 (.node 0xAC8B841DB3 (.node 0xAC82026599 (.node 0xAC81279AD9 (.leaf 0x1F92A) (.leaf 0x1FAD)) (.node 0xAC85C59C70 (.leaf 0x2B52) (.leaf 0xD8))) (.node 0xAC92CEBD07 (.node 0xAC8E4E65E0 (.leaf 0x10B70) (.leaf 0x293D)) (.node 0xAC93CE9CDB (.leaf 0x1F594) (.leaf 0x294F)))) (.node 0xACA0852914 (.node 0xAC961B80F3 (.node 0xAC961A6AF3 (.leaf 0x2381) (.leaf 0x12168)) (.node 0xAC9A5A4540 (.leaf 0x12380) (.leaf 0x11AE5))) (.node 0xACA4153348 (.node 0xACA21A6FF3 (.leaf 0x10B66) (.leaf 0x1216C)) (.node 0xACB000A3D7 (.leaf 0x1A58) (.leaf 0x11182))))
def nameTree_1331 : NameTree := .node 0xAC7916AF84 (.node 0xAC6DBEAEBD (.node 0xAC6477BC7D (.node 0xAC4F46FDBD (.leaf 0x59) (.node 0xAC62AC7827 (.leaf 0x5A) (.leaf 0x1BA4))) (.node 0xAC683D217F (.node 0xAC65D68D8D (.leaf 0x1F3FB) (.leaf 0x22B)) (.node 0xAC6DB7AEBD (.leaf 0x2B67) (.leaf 0x2CAB)))) (.node 0xAC6DC6A6BD (.node 0xAC6DC1AEBD (.node 0xAC6DBFAEBD (.leaf 0x2C99) (.leaf 0x2C9B)) (.node 0xAC6DC3B4BD (.leaf 0x2CA1) (.leaf 0x2CA3))) (.node 0xAC7005037B (.node 0xAC6F396051 (.leaf 0x2CA9) (.leaf 0x2A10)) (.node 0xAC7638AA12 (.leaf 0x981) (.leaf 0x1F4FD))))) (nameTree_1330)
def nameTree_1332 : NameTree := .node 0xACC9AE4ABE (.node 0xACC9AC42BE (.node 0xACC9AB42BE (.node 0xACC9A942BE (.leaf 0x103A6) (.leaf 0x103C3)) (.node 0xACC9AB4ABE (.leaf 0x103A9) (.leaf 0x103AA))) (.node 0xACC9AD42BE (.node 0xACC9AC56BE (.leaf 0x103A3) (.leaf 0x103A4)) (.node 0xACC9AE42BE (.leaf 0x103BE) (.leaf 0x103B6)))) (.node 0xACC9B142BE (.node 0xACC9AF42BE (.node 0xACC9AE56BE (.leaf 0x103B7) (.leaf 0x103B8)) (.node 0xACC9AF56BE (.leaf 0x103B4) (.leaf 0x103B5))) (.node 0xACC9B356BE (.node 0xACC9B342BE (.leaf 0x103B1) (.leaf 0x103BC)) (.node 0xACC9B442BE (.leaf 0x103BD) (.leaf 0x103BF))))
def nameTree_1333 : NameTree := .node 0xACC9A856BE (.node 0xACBF3F705A (.node 0xACBC5C6ABD (.node 0xACB4CDB0F4 (.leaf 0x972) (.node 0xACB4CDBAF4 (.leaf 0x90D) (.leaf 0x911))) (.node 0xACBC5C71BD (.node 0xACBC5C6CBD (.leaf 0x212F) (.leaf 0x210A)) (.node 0xACBC5C74BD (.leaf 0x2113) (.leaf 0x2134)))) (.node 0xACC9A54ABE (.node 0xACC9A442BE (.node 0xACC9A342BE (.leaf 0x291E) (.leaf 0x103B2)) (.node 0xACC9A542BE (.leaf 0x103A8) (.leaf 0x103AD))) (.node 0xACC9A742BE (.node 0xACC9A556BE (.leaf 0x103AE) (.leaf 0x103AF)) (.node 0xACC9A842BE (.leaf 0x103B3) (.leaf 0x103A5))))) (nameTree_1332)
def nameTree_1334 : NameTree := .node 0xA889F42B50 (.node 0xA658A65552 (.node 0xA49D1BFA9D (.node 0xA3E04EAC00 (.node 0xA39D1BEC28 (nameTree_1277) (nameTree_1279)) (.node 0xA41DE1EC30 (nameTree_1281) (nameTree_1283))) (.node 0xA5A53C56B8 (.node 0xA5266291D6 (nameTree_1284) (nameTree_1286)) (.node 0xA5E10C421D (nameTree_1288) (nameTree_1290)))) (.node 0xA757843767 (.node 0xA6DA178754 (.node 0xA6A0106AF3 (nameTree_1291) (nameTree_1293)) (.node 0xA7029B6D4A (nameTree_1295) (nameTree_1297))) (.node 0xA7EDBE89AC (.node 0xA7BB220A5F (nameTree_1298) (nameTree_1300)) (.node 0xA81E537115 (nameTree_1302) (nameTree_1304))))) (.node 0xAA4AB0EF07 (.node 0xA95EDDD613 (.node 0xA8FA63DBDE (.node 0xA8C53BF7ED (nameTree_1305) (nameTree_1307)) (.node 0xA903283227 (nameTree_1309) (nameTree_1311))) (.node 0xA9FF406880 (.node 0xA9A11EF47F (nameTree_1312) (nameTree_1314)) (.node 0xAA1B237FE9 (nameTree_1316) (nameTree_1318)))) (.node 0xABC49C5BD8 (.node 0xAB7BBAD737 (.node 0xAAE46EAA2A (nameTree_1319) (nameTree_1321)) (.node 0xAB9F734895 (nameTree_1323) (nameTree_1325))) (.node 0xAC4F46FCBD (.node 0xAC4188AC88 (nameTree_1327) (nameTree_1329)) (.node 0xACB4CDACF4 (nameTree_1331) (nameTree_1333)))))
def nameTree_1335 : NameTree := .node 0xACF4141140 (.node 0xACCC403EB3 (.node 0xACC9B74ABE (.node 0xACC9B556BE (.leaf 0x103AB) (.node 0xACC9B742BE (.leaf 0x103AC) (.leaf 0x103BA))) (.node 0xACC9BA42BE (.node 0xACC9B942BE (.leaf 0x103BB) (.leaf 0x103A7)) (.node 0xACC9BB42BE (.leaf 0x103B9) (.leaf 0x103C0)))) (.node 0xACE63B96C7 (.node 0xACD968E6B2 (.node 0xACCE763374 (.leaf 0x2D1F) (.leaf 0xFCC6)) (.node 0xACDE060B40 (.leaf 0x11181) (.leaf 0x1527))) (.node 0xACF4060340 (.node 0xACF2A40C15 (.leaf 0x1F752) (.leaf 0x3035)) (.node 0xACF40E0B40 (.leaf 0x153B) (.leaf 0x1533))))) (.node 0xAD0DC98EE7 (.node 0xAD054AB68D (.node 0xACFC306C80 (.leaf 0x1537) (.node 0xAD025B5E5B (.leaf 0x2C32) (.leaf 0x9ED))) (.node 0xAD07B8BA83 (.node 0xAD057E7054 (.leaf 0x2EE) (.leaf 0x10ADD)) (.node 0xAD0D825DE3 (.leaf 0x1D788) (.leaf 0x2AF)))) (.node 0xAD1A7F7BB5 (.node 0xAD1A7F7336 (.node 0xAD142D530C (.leaf 0x1F6E7) (.leaf 0xFE2B)) (.node 0xAD1A7F7645 (.leaf 0x10ADA) (.leaf 0x10ACB))) (.node 0xAD210DDC31 (.node 0xAD1F60B85A (.leaf 0x10AC9) (.leaf 0x25D6)) (.node 0xAD23D81CDB (.leaf 0xFC74) (.leaf 0x1F55B)))))
def nameTree_1336 : NameTree := .node 0xAD99920630 (.node 0xAD8EA2C579 (.node 0xAD820784E2 (.node 0xAD8100F578 (.leaf 0x2C0C) (.leaf 0x1685B)) (.node 0xAD8B7BA8BB (.leaf 0xFF19) (.leaf 0xFC17))) (.node 0xAD93234370 (.node 0xAD90FC9FB3 (.leaf 0xFE9D) (.leaf 0x3B0)) (.node 0xAD96AE4471 (.leaf 0x2E3D) (.leaf 0x11A3A)))) (.node 0xADAE644E67 (.node 0xADAB0D9F18 (.node 0xADA329B13C (.leaf 0x2205) (.leaf 0x2905)) (.node 0xADACF0D434 (.leaf 0x1D0C1) (.leaf 0x1D09F))) (.node 0xADBEEEE039 (.node 0xADB08489CB (.leaf 0x1D17C) (.leaf 0x1CDF)) (.node 0xADC1647133 (.leaf 0x19E8) (.leaf 0x248E))))
def nameTree_1337 : NameTree := .node 0xAD7EF73DBD (.node 0xAD6049C6EC (.node 0xAD42B03486 (.node 0xAD2F2A92A4 (.leaf 0x1F1C) (.node 0xAD34590420 (.leaf 0xF3E) (.leaf 0x10857))) (.node 0xAD4322F3F9 (.node 0xAD431FF3F9 (.leaf 0x1D0AE) (.leaf 0x10B24)) (.node 0xAD543FC59E (.leaf 0x10B23) (.leaf 0xF01)))) (.node 0xAD6A1125B8 (.node 0xAD6851CDE2 (.node 0xAD61C9A0D3 (.leaf 0x1698D) (.leaf 0x276A)) (.node 0xAD69084579 (.leaf 0x1698A) (.leaf 0x1AB7))) (.node 0xAD766987DF (.node 0xAD7045C6EC (.leaf 0x101DB) (.leaf 0x169BF)) (.node 0xAD79C328A8 (.leaf 0x1F5EB) (.leaf 0x22))))) (nameTree_1336)
def nameTree_1338 : NameTree := .node 0xADF245E88E (.node 0xADF245E48E (.node 0xADF1BEAE40 (.node 0xADF1BCAE40 (.leaf 0xAA6C) (.leaf 0xAA71)) (.node 0xADF245E38E (.leaf 0xAA72) (.leaf 0x1D670))) (.node 0xADF245E68E (.node 0xADF245E58E (.leaf 0x1D671) (.leaf 0x1D672)) (.node 0xADF245E78E (.leaf 0x1D673) (.leaf 0x1D674)))) (.node 0xADF245EC8E (.node 0xADF245EA8E (.node 0xADF245E98E (.leaf 0x1D675) (.leaf 0x1D676)) (.node 0xADF245EB8E (.leaf 0x1D677) (.leaf 0x1D678))) (.node 0xADF245EE8E (.node 0xADF245ED8E (.leaf 0x1D679) (.leaf 0x1D67A)) (.node 0xADF245EF8E (.leaf 0x1D67B) (.leaf 0x1D67C))))
def nameTree_1339 : NameTree := .node 0xADF1B7AE40 (.node 0xADEB5CAE8E (.node 0xADD9ADF9AB (.node 0xADCE64B4B3 (.leaf 0x2D15) (.node 0xADD4E76BF4 (.leaf 0x1210E) (.leaf 0xFDF2))) (.node 0xADE060B08E (.node 0xADDC60B08E (.leaf 0x292B) (.leaf 0x1EE1C)) (.node 0xADE96B47B0 (.leaf 0x1EE1E) (.leaf 0x1D9BF)))) (.node 0xADF1ACAE40 (.node 0xADF1AAAE40 (.node 0xADF1A7AE40 (.leaf 0x1EE1F) (.leaf 0xAA61)) (.node 0xADF1ABAE40 (.leaf 0xAA6F) (.leaf 0xAA60))) (.node 0xADF1B2AE40 (.node 0xADF1AEAE40 (.leaf 0xAA6D) (.leaf 0xAA63)) (.node 0xADF1B6AE40 (.leaf 0xAA6B) (.leaf 0xAA73))))) (nameTree_1338)
def nameTree_1340 : NameTree := .node 0xAE14B2D449 (.node 0xAE0419820B (.node 0xAE016B3BED (.node 0xAE01623DA0 (.leaf 0x622) (.leaf 0x1D79A)) (.node 0xAE030B8B0B (.leaf 0x1D792) (.leaf 0x278F))) (.node 0xAE07AE67E3 (.node 0xAE046E3D49 (.leaf 0x278B) (.leaf 0x1D799)) (.node 0xAE147DA69B (.leaf 0x104F4) (.leaf 0x1F932)))) (.node 0xAE3473CABE (.node 0xAE2735D4D7 (.node 0xAE20E68EBC (.leaf 0x1D7F3) (.leaf 0x3ED)) (.node 0xAE2F0585CE (.leaf 0x1D952) (.leaf 0x1DA68))) (.node 0xAE42724959 (.node 0xAE34861BD6 (.leaf 0x1D085) (.leaf 0x1DFF)) (.node 0xAE4379E30B (.leaf 0x16862) (.leaf 0x11BB))))
def nameTree_1341 : NameTree := .node 0xAE00AFDF6F (.node 0xADF245F78E (.node 0xADF245F38E (.node 0xADF245F18E (.leaf 0x1D67D) (.node 0xADF245F28E (.leaf 0x1D67E) (.leaf 0x1D67F))) (.node 0xADF245F58E (.node 0xADF245F48E (.leaf 0x1D680) (.leaf 0x1D681)) (.node 0xADF245F68E (.leaf 0x1D682) (.leaf 0x1D683)))) (.node 0xADF245FB8E (.node 0xADF245F98E (.node 0xADF245F88E (.leaf 0x1D684) (.leaf 0x1D685)) (.node 0xADF245FA8E (.leaf 0x1D686) (.leaf 0x1D687))) (.node 0xADF3F1DD08 (.node 0xADF245FC8E (.leaf 0x1D688) (.leaf 0x1D689)) (.node 0xADFF10780B (.leaf 0x830) (.leaf 0x278A))))) (nameTree_1340)
def nameTree_1342 : NameTree := .node 0xAE7B21BAFD (.node 0xAE64D24C86 (.node 0xAE60B43868 (.node 0xAE4ECC8F4C (.leaf 0x1877) (.node 0xAE509042F1 (.leaf 0x32AA) (.leaf 0x1C57))) (.node 0xAE63AE5F15 (.node 0xAE619550C2 (.leaf 0x114C2) (.leaf 0xDDC)) (.node 0xAE64CA4E86 (.leaf 0x251D) (.leaf 0x1046D)))) (.node 0xAE64DE5686 (.node 0xAE64D85886 (.node 0xAE64D85486 (.leaf 0x10466) (.leaf 0x1046A)) (.node 0xAE64DC5586 (.leaf 0x10479) (.leaf 0x10455))) (.node 0xAE689254A8 (.node 0xAE65EAD293 (.leaf 0x10473) (.leaf 0x1113D)) (.node 0xAE6E30CDC9 (.leaf 0x2DF9) (.leaf 0xA751))))) (.node 0xAE8B12BBFD (.node 0xAE821E7500 (.node 0xAE7D9E6D67 (.leaf 0x16883) (.node 0xAE7F1E54FD (.leaf 0x1F367) (.leaf 0x16839))) (.node 0xAE891238A1 (.node 0xAE8655A8E7 (.leaf 0x1D913) (.leaf 0x1D34B)) (.node 0xAE8AEDB0FD (.leaf 0x11443) (.leaf 0x169C8)))) (.node 0xAE9D1EF7E5 (.node 0xAE9D1BF7E5 (.node 0xAE9D14E0E8 (.leaf 0x169C4) (.leaf 0x293A)) (.node 0xAE9D1EF689 (.leaf 0xA37E) (.leaf 0xA3A3))) (.node 0xAE9D985E85 (.node 0xAE9D633833 (.leaf 0xA38C) (.leaf 0x2211)) (.node 0xAE9D994E85 (.leaf 0xA654) (.leaf 0x510)))))
def nameTree_1343 : NameTree := .node 0xAF1E971DB7 (.node 0xAF1137FCE0 (.node 0xAF021A570F (.node 0xAEFBD69685 (.leaf 0x11082) (.leaf 0x1D09D)) (.node 0xAF0942A980 (.leaf 0x238F) (.leaf 0xA653))) (.node 0xAF1CAE035C (.node 0xAF1C72137F (.leaf 0x1D337) (.leaf 0x122B6)) (.node 0xAF1D971DB7 (.leaf 0x1141) (.leaf 0x116A1)))) (.node 0xAF22971DB7 (.node 0xAF1F971DB7 (.node 0xAF1F931DB7 (.leaf 0x11690) (.leaf 0x11696)) (.node 0xAF2136CCB7 (.leaf 0x1169C) (.leaf 0xDD8))) (.node 0xAF26971DB7 (.node 0xAF25971DB7 (.leaf 0x1168D) (.leaf 0x11692)) (.node 0xAF29961DB7 (.leaf 0x1168B) (.leaf 0x1168E))))
def nameTree_1344 : NameTree := .node 0xAEE5315A07 (.node 0xAEC3E6BA0B (.node 0xAEADACAC3A (.node 0xAEA11EF7E5 (.leaf 0xA3A9) (.node 0xAEAB991F32 (.leaf 0xA392) (.leaf 0x1F860))) (.node 0xAEB5BC28B8 (.node 0xAEB0A183C3 (.leaf 0x1D313) (.leaf 0x3295)) (.node 0xAEC09C532F (.leaf 0xFC8C) (.leaf 0x11054)))) (.node 0xAED26269F2 (.node 0xAECE56297A (.node 0xAEC8B42FD4 (.leaf 0x2629) (.leaf 0xDA4)) (.node 0xAECE5C2F7A (.leaf 0x961) (.leaf 0x960))) (.node 0xAEDAF52F85 (.node 0xAED61A01D4 (.leaf 0xFE5A) (.leaf 0x1F4DE)) (.node 0xAEE3A4C1BE (.leaf 0x2289) (.leaf 0x27BE))))) (nameTree_1343)
def nameTree_1345 : NameTree := .node 0xAF4337E09D (.node 0xAF4337DC9D (.node 0xAF3FE3C7B2 (.node 0xAF3D63E9B2 (.leaf 0xFD0C) (.leaf 0x12389)) (.node 0xAF4337DB9D (.leaf 0x705) (.leaf 0x24D0))) (.node 0xAF4337DE9D (.node 0xAF4337DD9D (.leaf 0x24D1) (.leaf 0x24D2)) (.node 0xAF4337DF9D (.leaf 0x24D3) (.leaf 0x24D4)))) (.node 0xAF4337E49D (.node 0xAF4337E29D (.node 0xAF4337E19D (.leaf 0x24D5) (.leaf 0x24D6)) (.node 0xAF4337E39D (.leaf 0x24D7) (.leaf 0x24D8))) (.node 0xAF4337E69D (.node 0xAF4337E59D (.leaf 0x24D9) (.leaf 0x24DA)) (.node 0xAF4337E79D (.leaf 0x24DB) (.leaf 0x24DC))))
def nameTree_1346 : NameTree := .node 0xAF390D4EE0 (.node 0xAF2FA31DB7 (.node 0xAF2DA11DB7 (.node 0xAF29A81DB7 (.leaf 0x11698) (.node 0xAF2B971DB7 (.leaf 0x11693) (.leaf 0x1169F))) (.node 0xAF2EAE93AA (.node 0xAF2E971DB7 (.leaf 0x116AA) (.leaf 0x116A7)) (.node 0xAF2F971DB7 (.leaf 0x10881) (.leaf 0x1169A)))) (.node 0xAF38DB9B0C (.node 0xAF38DB8F0C (.node 0xAF38DB830C (.leaf 0x11694) (.leaf 0xAAB1)) (.node 0xAF38DB900C (.leaf 0xAABE) (.leaf 0xAABD))) (.node 0xAF38EF830C (.node 0xAF38E3830C (.leaf 0xAABC) (.leaf 0xAAB8)) (.node 0xAF38EF870C (.leaf 0xAABA) (.leaf 0xAAB3))))) (nameTree_1345)
def nameTree_1347 : NameTree := .node 0xAF61C2E98D (.node 0xAF56F00BC3 (.node 0xAF53EF3CB0 (.node 0xAF4C6B2701 (.leaf 0x1CC5) (.leaf 0x1F540)) (.node 0xAF55B3774B (.leaf 0x6D3) (.leaf 0x268B))) (.node 0xAF5F19A598 (.node 0xAF5BA33FAE (.leaf 0x7EC) (.leaf 0x12393)) (.node 0xAF6019A598 (.leaf 0xA9E4) (.leaf 0xA9E1)))) (.node 0xAF6819A598 (.node 0xAF655D414D (.node 0xAF6419A598 (.leaf 0x1243C) (.leaf 0xA9E0)) (.node 0xAF6719A598 (.leaf 0x27A1) (.leaf 0xA9E2))) (.node 0xAF6B1FA598 (.node 0xAF68FE9D66 (.leaf 0x1076) (.leaf 0xAA7E)) (.node 0xAF6B2AA598 (.leaf 0xA9E3) (.leaf 0x107A))))
def nameTree_1348 : NameTree := .node 0xAF4C318E0B (.node 0xAF4337EF9D (.node 0xAF4337EB9D (.node 0xAF4337E99D (.leaf 0x24DD) (.node 0xAF4337EA9D (.leaf 0x24DE) (.leaf 0x24DF))) (.node 0xAF4337ED9D (.node 0xAF4337EC9D (.leaf 0x24E0) (.leaf 0x24E1)) (.node 0xAF4337EE9D (.leaf 0x24E2) (.leaf 0x24E3)))) (.node 0xAF4337F39D (.node 0xAF4337F19D (.node 0xAF4337F09D (.leaf 0x24E4) (.leaf 0x24E5)) (.node 0xAF4337F29D (.leaf 0x24E6) (.leaf 0x24E7))) (.node 0xAF4C3083F2 (.node 0xAF4337F49D (.leaf 0x24E8) (.leaf 0x24E9)) (.node 0xAF4C30BF14 (.leaf 0x1CC7) (.leaf 0x1CC6))))) (nameTree_1347)
def nameTree_1349 : NameTree := .node 0xAF8F8A3467 (.node 0xAF7AAF6915 (.node 0xAF7119A598 (.node 0xAF6EE30E70 (.leaf 0x107D) (.node 0xAF70E97606 (.leaf 0xCA) (.leaf 0x1DA83))) (.node 0xAF7812BBFD (.node 0xAF712DC0DB (.leaf 0x1080) (.leaf 0x12296)) (.node 0xAF78FE9D66 (.leaf 0x169A9) (.leaf 0xAA7F)))) (.node 0xAF7E12BBFD (.node 0xAF7E0E09FD (.node 0xAF7DBF5B8F (.leaf 0x6DB) (.leaf 0x1DA0F)) (.node 0xAF7E0E51FD (.leaf 0x168A0) (.leaf 0x16912))) (.node 0xAF82CEB82C (.node 0xAF7E1CB4FD (.leaf 0x169BA) (.leaf 0x16A02)) (.node 0xAF857F75F8 (.leaf 0x4E3) (.leaf 0x4B9))))) (.node 0xAFB4AB626D (.node 0xAFA11EF83C (.node 0xAF9111F03C (.leaf 0xFE45) (.node 0xAF9111F83C (.leaf 0xA330) (.leaf 0xA32E))) (.node 0xAFAFB3F702 (.node 0xAFA4F5AABE (.leaf 0xA344) (.leaf 0x111DB)) (.node 0xAFB25EBDD0 (.leaf 0x205F) (.leaf 0xFF0F)))) (.node 0xAFC179C1CE (.node 0xAFB87826A2 (.node 0xAFB59F5D16 (.leaf 0x1105F) (.leaf 0x11059)) (.node 0xAFBFE2F356 (.leaf 0x2976) (.leaf 0x25B7))) (.node 0xAFCB02BAE2 (.node 0xAFC6AB66D8 (.leaf 0x11002) (.leaf 0x11060)) (.node 0xAFCCD00CB6 (.leaf 0x16B75) (.leaf 0xFD27)))))
def nameTree_1350 : NameTree := .node 0xB01FB5DBA1 (.node 0xB01FA7DFA1 (.node 0xB01E25454F (.node 0xB01494672B (.leaf 0x1F52) (.leaf 0x1D831)) (.node 0xB01FA7DBA1 (.leaf 0xA9E5) (.leaf 0x19B1))) (.node 0xB01FAFE3A1 (.node 0xB01FA7F3A1 (.leaf 0x19B6) (.leaf 0x19BA)) (.node 0xB01FAFF3A1 (.leaf 0x19B2) (.leaf 0x19C0)))) (.node 0xB01FBBF3A1 (.node 0xB01FBBDFA1 (.node 0xB01FB5F3A1 (.leaf 0x19B8) (.leaf 0x19BD)) (.node 0xB01FBBEFA1 (.leaf 0x19B9) (.leaf 0x19B4))) (.node 0xB025BE2147 (.node 0xB02012F1F5 (.leaf 0x19BC) (.leaf 0x2944)) (.node 0xB02861C405 (.leaf 0x2E10) (.leaf 0x2E0C))))
def nameTree_1351 : NameTree := .node 0xB00F87FF20 (.node 0xAFEE21A596 (.node 0xAFE1167211 (.node 0xAFDCC99909 (.leaf 0x21D7) (.node 0xAFDF4551BF (.leaf 0x112F0) (.leaf 0x1AB4))) (.node 0xAFECC79B10 (.node 0xAFE9189B96 (.leaf 0x7F3) (.leaf 0x1BB1)) (.node 0xAFED13AE96 (.leaf 0x1D6D3) (.leaf 0x1BB6)))) (.node 0xAFFE5B55B2 (.node 0xAFFC3E7080 (.node 0xAFF8407080 (.leaf 0x1BB2) (.leaf 0x2C51)) (.node 0xAFFC3E7C80 (.leaf 0x2C50) (.leaf 0x2C4F))) (.node 0xB0091C5090 (.node 0xB0020312D9 (.leaf 0x9E9) (.leaf 0x2AF5)) (.node 0xB00B0B7A1B (.leaf 0x250B) (.leaf 0x1F507))))) (nameTree_1350)
def nameTree_1352 : NameTree := .node 0xB02F7CC5A9 (.node 0xB02E7FC7A9 (.node 0xB02E7EC7A9 (.node 0xB02E7EC6A9 (.leaf 0x2831) (.leaf 0x2851)) (.node 0xB02E7FC6A9 (.leaf 0x2891) (.leaf 0x2861))) (.node 0xB02F7CC3A9 (.node 0xB02E80C7A9 (.leaf 0x28A1) (.leaf 0x28C1)) (.node 0xB02F7CC4A9 (.leaf 0x280E) (.leaf 0x2816)))) (.node 0xB02F7DC5A9 (.node 0xB02F7CC7A9 (.node 0xB02F7CC6A9 (.leaf 0x2826) (.leaf 0x2846)) (.node 0xB02F7DC4A9 (.leaf 0x2886) (.leaf 0x281A))) (.node 0xB02F7DC7A9 (.node 0xB02F7DC6A9 (.leaf 0x282A) (.leaf 0x284A)) (.node 0xB02F7EC5A9 (.leaf 0x288A) (.leaf 0x2832))))
def nameTree_1353 : NameTree := .node 0xB02E7EC5A9 (.node 0xB02E7CC4A9 (.node 0xB02E7BC5A9 (.node 0xB02E7BC3A9 (.leaf 0x2807) (.node 0xB02E7BC4A9 (.leaf 0x280B) (.leaf 0x2813))) (.node 0xB02E7BC7A9 (.node 0xB02E7BC6A9 (.leaf 0x2823) (.leaf 0x2843)) (.node 0xB02E7CC3A9 (.leaf 0x2883) (.leaf 0x280D)))) (.node 0xB02E7DC4A9 (.node 0xB02E7CC6A9 (.node 0xB02E7CC5A9 (.leaf 0x2815) (.leaf 0x2825)) (.node 0xB02E7CC7A9 (.leaf 0x2845) (.leaf 0x2885))) (.node 0xB02E7DC6A9 (.node 0xB02E7DC5A9 (.leaf 0x2819) (.leaf 0x2829)) (.node 0xB02E7DC7A9 (.leaf 0x2849) (.leaf 0x2889))))) (nameTree_1352)
def nameTree_1354 : NameTree := .node 0xB03280C7A9 (.node 0xB0317FC7A9 (.node 0xB0317EC7A9 (.node 0xB0317EC6A9 (.leaf 0x2838) (.leaf 0x2858)) (.node 0xB0317FC6A9 (.leaf 0x2898) (.leaf 0x2868))) (.node 0xB0327FC6A9 (.node 0xB03180C7A9 (.leaf 0x28A8) (.leaf 0x28C8)) (.node 0xB0327FC7A9 (.leaf 0x2870) (.leaf 0x28B0)))) (.node 0xB0367436EE (.node 0xB03380C7A9 (.node 0xB03353D7D8 (.leaf 0x28D0) (.leaf 0x295C)) (.node 0xB033FF0053 (.leaf 0x28E0) (.leaf 0x322D))) (.node 0xB040E12041 (.node 0xB03E773344 (.leaf 0x10A3A) (.leaf 0x20B4)) (.node 0xB041210C08 (.leaf 0x1F383) (.leaf 0x11D59))))
def nameTree_1355 : NameTree := .node 0xB0317EC5A9 (.node 0xB0307DC6A9 (.node 0xB02F7FC7A9 (.node 0xB02F7EC7A9 (.leaf 0x2852) (.node 0xB02F7FC6A9 (.leaf 0x2892) (.leaf 0x2862))) (.node 0xB0307DC4A9 (.node 0xB02F80C7A9 (.leaf 0x28A2) (.leaf 0x28C2)) (.node 0xB0307DC5A9 (.leaf 0x281C) (.leaf 0x282C)))) (.node 0xB0307EC7A9 (.node 0xB0307EC5A9 (.node 0xB0307DC7A9 (.leaf 0x284C) (.leaf 0x288C)) (.node 0xB0307EC6A9 (.leaf 0x2834) (.leaf 0x2854))) (.node 0xB0307FC7A9 (.node 0xB0307FC6A9 (.leaf 0x2894) (.leaf 0x2864)) (.node 0xB03080C7A9 (.leaf 0x28A4) (.leaf 0x28C4))))) (nameTree_1354)
def nameTree_1356 : NameTree := .node 0xB0AC789989 (.node 0xB09BE3C195 (.node 0xB08E8FC549 (.node 0xB08E8FC449 (.leaf 0x1D195) (.leaf 0x1F70B)) (.node 0xB09948B7B7 (.leaf 0x1F70C) (.leaf 0xFE5F))) (.node 0xB0A03F7C02 (.node 0xB09FFD1840 (.leaf 0xA7A4) (.leaf 0xFD99)) (.node 0xB0AC6DB585 (.leaf 0x10A6E) (.leaf 0x1F75)))) (.node 0xB0B9B5F0FA (.node 0xB0B29FB247 (.node 0xB0B1025AF0 (.leaf 0x10B7E) (.leaf 0x9EB)) (.node 0xB0B70167F0 (.leaf 0x1E79) (.leaf 0x9EA))) (.node 0xB0BA008715 (.node 0xB0B9BE351E (.leaf 0x9E7) (.leaf 0x145BD)) (.node 0xB0BDB103FA (.leaf 0xAA84) (.leaf 0x9EC))))
def nameTree_1357 : NameTree := .node 0xB08BBA8216 (.node 0xB053FE6BF4 (.node 0xB04D4C7D5E (.node 0xB042937FF4 (.leaf 0x3216) (.node 0xB049466BF4 (.leaf 0x321C) (.leaf 0x321B))) (.node 0xB050AC6BF4 (.node 0xB04FF96BF4 (.leaf 0x1F61C) (.leaf 0x3212)) (.node 0xB051506BF4 (.leaf 0x3211) (.leaf 0x320F)))) (.node 0xB06E151819 (.node 0xB05CAE6CDF (.node 0xB058C49FB1 (.leaf 0x3213) (.leaf 0x2470)) (.node 0xB0678A6CB5 (.leaf 0x1BA7) (.leaf 0xFE9F))) (.node 0xB072BDFD46 (.node 0xB0720677B3 (.leaf 0x101E3) (.leaf 0x101D6)) (.node 0xB07A0CC219 (.leaf 0x1D078) (.leaf 0x101E6))))) (nameTree_1356)
def nameTree_1358 : NameTree := .node 0xB0F26D2E86 (.node 0xB0F0652786 (.node 0xB0EE8FB475 (.node 0xB0EC733086 (.leaf 0x10EC) (.leaf 0x10D3)) (.node 0xB0EF653086 (.leaf 0x27A8) (.leaf 0x10D2))) (.node 0xB0F06D2786 (.node 0xB0F0653486 (.leaf 0x10F0) (.leaf 0x10F4)) (.node 0xB0F0732786 (.leaf 0x10F2) (.leaf 0x10F5)))) (.node 0xB0F4A48C6B (.node 0xB0F3653086 (.node 0xB0F35E5F99 (.leaf 0x10EB) (.leaf 0x9EE)) (.node 0xB0F4653586 (.leaf 0x10D9) (.leaf 0x10DA))) (.node 0xB0F6653486 (.node 0xB0F5653086 (.leaf 0x765) (.leaf 0x10DB)) (.node 0xB0F8653486 (.leaf 0x10DC) (.leaf 0x10DE))))
def nameTree_1359 : NameTree := .node 0xB0EB6D2E86 (.node 0xB0E0B3F537 (.node 0xB0CF12263A (.node 0xB0BEBEFAFA (.leaf 0x1BFF) (.node 0xB0C2B28756 (.leaf 0x9E8) (.leaf 0x1B005))) (.node 0xB0DA046666 (.node 0xB0D2A740B7 (.leaf 0x1F738) (.leaf 0x309D)) (.node 0xB0DBAF492C (.leaf 0x11D2F) (.leaf 0xD58)))) (.node 0xB0E96D3086 (.node 0xB0E569283C (.node 0xB0E3ADE227 (.leaf 0x27A4) (.leaf 0xA722)) (.node 0xB0E9693086 (.leaf 0x16B6E) (.leaf 0x10FD))) (.node 0xB0EA653086 (.node 0xB0EA2864A6 (.leaf 0x10FA) (.leaf 0x1D9D1)) (.node 0xB0EB653086 (.leaf 0x10D1) (.leaf 0x10EA))))) (nameTree_1358)
def nameTree_1360 : NameTree := .node 0xB11163A995 (.node 0xB10DAF6A41 (.node 0xB10C63A995 (.node 0xB109DE100E (.leaf 0x10A13) (.leaf 0x1D73B)) (.node 0xB10C66A995 (.leaf 0x10A11) (.leaf 0x10A32))) (.node 0xB10F74A995 (.node 0xB10F69A995 (.leaf 0x10167) (.leaf 0x10A1E)) (.node 0xB110B2CBA0 (.leaf 0x10A19) (.leaf 0x1D7EF)))) (.node 0xB1156635F2 (.node 0xB1146EA995 (.node 0xB11463A995 (.leaf 0x10A25) (.leaf 0x10A2D)) (.node 0xB11563A995 (.leaf 0x10A2E) (.leaf 0x10A20))) (.node 0xB116651B3F (.node 0xB1156FA995 (.leaf 0x5A8) (.leaf 0x10A1A)) (.node 0xB1168F4228 (.leaf 0xFD7B) (.leaf 0x1C3E))))
def nameTree_1361 : NameTree := .node 0xB10863A995 (.node 0xB100653086 (.node 0xB0FB653086 (.node 0xB0FA652786 (.leaf 0x10E7) (.node 0xB0FB4B4C8D (.leaf 0x10E0) (.leaf 0x1F788))) (.node 0xB0FC653486 (.node 0xB0FC653086 (.leaf 0x10E1) (.leaf 0x10D7)) (.node 0xB0FE6D3086 (.leaf 0x10E2) (.leaf 0x10D5)))) (.node 0xB10463A995 (.node 0xB102693086 (.node 0xB100C794A4 (.leaf 0x10EE) (.leaf 0x1E20)) (.node 0xB10363A995 (.leaf 0x10D6) (.leaf 0x10A27))) (.node 0xB10563A995 (.node 0xB1055FA995 (.leaf 0x10A16) (.leaf 0x10A1C)) (.node 0xB1069D885B (.leaf 0x10A22) (.leaf 0x1D91D))))) (nameTree_1360)
def nameTree_1362 : NameTree := .node 0xB1843945B7 (.node 0xB172A5ADA2 (.node 0xB16AAA2B66 (.node 0xB161EAC9EA (.leaf 0x1EAF) (.leaf 0x11139)) (.node 0xB16AB1204D (.leaf 0x74D) (.leaf 0x74E))) (.node 0xB1805006F0 (.node 0xB17B21A6B1 (.leaf 0x22D2) (.leaf 0x1E3D)) (.node 0xB180ACF621 (.leaf 0x2664) (.leaf 0x2336)))) (.node 0xB193C308F1 (.node 0xB18E9C1209 (.node 0xB185D52591 (.leaf 0x10B7F) (.leaf 0x2C27)) (.node 0xB1937A27E0 (.leaf 0x16887) (.leaf 0xB70))) (.node 0xB19A783358 (.node 0xB1961E80C3 (.leaf 0x1D8A) (.leaf 0x111D5)) (.node 0xB19B6516E4 (.leaf 0x4D2) (.leaf 0x258C))))
def nameTree_1363 : NameTree := .node 0xB15C89183C (.node 0xB1383DB49E (.node 0xB1236A3901 (.node 0xB11DC153C4 (.leaf 0x309B) (.node 0xB123603187 (.leaf 0x296C) (.leaf 0x5A7))) (.node 0xB12B5E469B (.node 0xB127172953 (.leaf 0x598) (.leaf 0x1AE)) (.node 0xB136A920C9 (.leaf 0x5A1) (.leaf 0x27B1)))) (.node 0xB1508424B1 (.node 0xB14C903A48 (.node 0xB1498ACCB0 (.leaf 0x1FDF) (.leaf 0x1090B)) (.node 0xB14D962CE7 (.leaf 0x1C53) (.leaf 0x121E4))) (.node 0xB1520D10D0 (.node 0xB1512E4DE3 (.leaf 0x1F71) (.leaf 0xFCA6)) (.node 0xB153296B21 (.leaf 0x953) (.leaf 0x1D002))))) (nameTree_1362)
def nameTree_1364 : NameTree := .node 0xB1CCF6CA3F (.node 0xB1B8958195 (.node 0xB1A3B0C45C (.node 0xB19CD987F7 (.leaf 0x111D4) (.node 0xB19EE029BE (.leaf 0x10B7B) (.leaf 0x1F19C))) (.node 0xB1AA29319C (.node 0xB1A967A5EF (.leaf 0x1015E) (.leaf 0x347)) (.node 0xB1B07F96F8 (.leaf 0x1F51F) (.leaf 0xE005B)))) (.node 0xB1C3F7D8A0 (.node 0xB1C0D2061D (.node 0xB1BB1EF7BC (.leaf 0x337B) (.leaf 0x8B8)) (.node 0xB1C2A94F58 (.leaf 0xD78) (.leaf 0x4EC))) (.node 0xB1C781F53C (.node 0xB1C72DE0DD (.leaf 0xA73E) (.leaf 0x2636)) (.node 0xB1CC46F153 (.leaf 0xECD) (.leaf 0xFD72))))) (.node 0xB1DE3A9C70 (.node 0xB1CCF6CE3F (.node 0xB1CCF6CB3F (.leaf 0x1D21D) (.node 0xB1CCF6CD3F (.leaf 0x1D21E) (.leaf 0x1D21F))) (.node 0xB1CCF6D13F (.node 0xB1CCF6D03F (.leaf 0x1D220) (.leaf 0x1D221)) (.node 0xB1DD12B2DB (.leaf 0x1D222) (.leaf 0x2DFE)))) (.node 0xB1EADA6B58 (.node 0xB1E3763488 (.node 0xB1DEFE6666 (.leaf 0x22B3) (.leaf 0x11D2E)) (.node 0xB1E91FCD27 (.leaf 0x1CD3) (.leaf 0x1F13))) (.node 0xB1F2557C89 (.node 0xB1EC3E207F (.leaf 0x4E4) (.leaf 0x116C7)) (.node 0xB1F7664472 (.leaf 0x1F64) (.leaf 0x3D4)))))
def nameTree_1365 : NameTree := .node 0xB227D7FB96 (.node 0xB227CEFB96 (.node 0xB227CBFB96 (.node 0xB227CAFB96 (.leaf 0x1763) (.leaf 0x176E)) (.node 0xB227CCFB96 (.leaf 0x176B) (.leaf 0x1768))) (.node 0xB227D2FB96 (.node 0xB227D1FB96 (.leaf 0x1769) (.leaf 0x1770)) (.node 0xB227D5FB96 (.leaf 0x1766) (.leaf 0x176F)))) (.node 0xB239ACA38D (.node 0xB239653E95 (.node 0xB230ED132E (.leaf 0x176C) (.leaf 0x1D91A)) (.node 0xB239A69D8D (.leaf 0x21AE) (.leaf 0x11638))) (.node 0xB23C2C574D (.node 0xB23C2C534D (.leaf 0x11636) (.leaf 0xFF67)) (.node 0xB23C2C5B4D (.leaf 0xFF6A) (.leaf 0xFF68))))
def nameTree_1366 : NameTree := .node 0xB227C9FB96 (.node 0xB21CBDF4CA (.node 0xB205404253 (.node 0xB2046D5F29 (.leaf 0x1D793) (.node 0xB204A47B9B (.leaf 0x208) (.leaf 0x22DD))) (.node 0xB21A30BECA (.node 0xB205B5D587 (.leaf 0x1D979) (.leaf 0x1D7F4)) (.node 0xB21A40551C (.leaf 0x114C4) (.leaf 0x1F856)))) (.node 0xB227241558 (.node 0xB22195EC60 (.node 0xB21DB24D91 (.leaf 0x373) (.leaf 0x1EE1B)) (.node 0xB221AE51A5 (.leaf 0x25DE) (.leaf 0x1EE14))) (.node 0xB227C2FB96 (.node 0xB227C0FB96 (.leaf 0x4E6) (.leaf 0x176A)) (.node 0xB227C5FB96 (.leaf 0x1767) (.leaf 0x1764))))) (nameTree_1365)
def nameTree_1367 : NameTree := .node 0xB2A15ABAE6 (.node 0xB283729F4D (.node 0xB27ADD20BD (.node 0xB2740BDA7A (.leaf 0x1806) (.leaf 0x2E42)) (.node 0xB2824AE039 (.leaf 0x2BCF) (.leaf 0x19E7))) (.node 0xB29A3451C3 (.node 0xB294F9EF6D (.leaf 0x4DC8) (.leaf 0x103A)) (.node 0xB29ACBCE4D (.leaf 0xFE24) (.leaf 0x7E7)))) (.node 0xB2B21DDA2B (.node 0xB2A5A89D35 (.node 0xB2A48EC91D (.leaf 0x1F44F) (.leaf 0x227E)) (.node 0xB2B0086191 (.leaf 0x4DF1) (.leaf 0x12317))) (.node 0xB2C259AD95 (.node 0xB2B7BED0A5 (.leaf 0x2C81) (.leaf 0xA22)) (.node 0xB2CC4042B3 (.leaf 0x83B) (.leaf 0x2D14))))
def nameTree_1368 : NameTree := .node 0xB27184C6DA (.node 0xB25F703149 (.node 0xB24422F3F9 (.node 0xB23C2C674D (.leaf 0xFF6B) (.node 0xB24193442F (.leaf 0xFF69) (.leaf 0x1C58))) (.node 0xB252CC8F27 (.node 0xB24F11F3F9 (.leaf 0x10B33) (.leaf 0x10B34)) (.node 0xB256EDD3D1 (.leaf 0xA838) (.leaf 0x1113E)))) (.node 0xB265468816 (.node 0xB2636DBF58 (.node 0xB262BF36D9 (.leaf 0x25A7) (.leaf 0x267C)) (.node 0xB2653C09DA (.leaf 0x4F0) (.leaf 0x651))) (.node 0xB26A2EFE3F (.node 0xB266EF9248 (.leaf 0xFC0A) (.leaf 0x1D189)) (.node 0xB26D885690 (.leaf 0x1F3C8) (.leaf 0x3240))))) (nameTree_1367)
def nameTree_1369 : NameTree := .node 0xB2F5EE911F (.node 0xB2F337ED1F (.node 0xB2F1E15D1F (.node 0xB2F1DD491F (.leaf 0xD87) (.leaf 0xD93)) (.node 0xB2F2E0813D (.leaf 0xD96) (.leaf 0x10AF))) (.node 0xB2F43B911F (.node 0xB2F38D911F (.leaf 0xD92) (.leaf 0xDC6)) (.node 0xB2F495491F (.leaf 0xDC4) (.leaf 0xD8A)))) (.node 0xB2F8FD911F (.node 0xB2F7A1911F (.node 0xB2F6A1531F (.leaf 0xDB8) (.leaf 0xD95)) (.node 0xB2F8AD5D1F (.leaf 0xDBB) (.leaf 0xD8C))) (.node 0xB2FA02911F (.node 0xB2F907EF12 (.leaf 0xDC0) (.leaf 0xC55)) (.node 0xB2FAD509C5 (.leaf 0xDBA) (.leaf 0xFE36))))
def nameTree_1370 : NameTree := .node 0xB2F1DBED1F (.node 0xB2E6E94C7C (.node 0xB2E362A5EF (.node 0xB2DF5D6A81 (.leaf 0x500) (.node 0xB2E0825482 (.leaf 0x1900) (.leaf 0x2B9C))) (.node 0xB2E6DFD4CE (.node 0xB2E60AC39B (.leaf 0x1DA43) (.leaf 0x2B58)) (.node 0xB2E6E9487C (.leaf 0xAA0A) (.leaf 0x111BC)))) (.node 0xB2E7D4D0CE (.node 0xB2E6E9587C (.node 0xB2E6E9527C (.leaf 0x111B4) (.leaf 0x111BE)) (.node 0xB2E7343A17 (.leaf 0x111B6) (.leaf 0x1DA4))) (.node 0xB2ECC2145F (.node 0xB2E7DFD4CE (.leaf 0xAA12) (.leaf 0xAA10)) (.node 0xB2F1DA911F (.leaf 0x16F51) (.leaf 0xD86))))) (nameTree_1369)
def nameTree_1371 : NameTree := .node 0xB3663DE85F (.node 0xB34157FB8B (.node 0xB30F8A6590 (.node 0xB30A18B358 (.leaf 0x9CE) (.node 0xB30B76BD8D (.leaf 0x114D) (.leaf 0x474))) (.node 0xB32026727D (.node 0xB3152AAF9B (.leaf 0x2B7E) (.leaf 0x1DA04)) (.node 0xB320C694AB (.leaf 0xABE2) (.leaf 0x2E13)))) (.node 0xB35415DC51 (.node 0xB343E8ED87 (.node 0xB34321B9ED (.leaf 0x1D922) (.leaf 0x2C2)) (.node 0xB34F2D0E2A (.leaf 0x1F36F) (.leaf 0x1CE8))) (.node 0xB35F9AACD4 (.node 0xB35BDA81D4 (.leaf 0x23FF) (.leaf 0x11AF8)) (.node 0xB364E97C7B (.leaf 0x1D1C9) (.leaf 0x1DA82))))) (.node 0xB377115522 (.node 0xB36BCEECAE (.node 0xB367884136 (.leaf 0x2773) (.node 0xB36853EB3C (.leaf 0x103D5) (.leaf 0x12294))) (.node 0xB3742A73FC (.node 0xB3741DC49B (.leaf 0x1206C) (.leaf 0xFCB2)) (.node 0xB375A0823F (.leaf 0x1D999) (.leaf 0x4DC0)))) (.node 0xB37B2260FD (.node 0xB37B2206FD (.node 0xB377124CFD (.leaf 0xFEE0) (.leaf 0x16827)) (.node 0xB37B225DFD (.leaf 0x168E2) (.leaf 0x16926))) (.node 0xB37BEF5370 (.node 0xB37B22BFFD (.leaf 0x1692C) (.leaf 0x169E6)) (.node 0xB38175D7F7 (.leaf 0x2C12) (.leaf 0xF0D)))))
def nameTree_1372 : NameTree := .node 0xB3CB0E5B9A (.node 0xB3B47BB8CF (.node 0xB3B2BD4525 (.node 0xB3B2BD4125 (.leaf 0x23BA) (.leaf 0x23BB)) (.node 0xB3B2BD4725 (.leaf 0x23BC) (.leaf 0x23BD))) (.node 0xB3B7F39792 (.node 0xB3B47BBCCF (.leaf 0x2DFC) (.leaf 0xA69F)) (.node 0xB3C12E352D (.leaf 0x21FA) (.leaf 0xC7)))) (.node 0xB3D21B22FE (.node 0xB3D20D22FE (.node 0xB3CF76CAA6 (.leaf 0xFB83) (.leaf 0x69E)) (.node 0xB3D21922FE (.leaf 0xABD5) (.leaf 0xABC5))) (.node 0xB3D62FF7F1 (.node 0xB3D2202FFE (.leaf 0xABC4) (.leaf 0xABCE)) (.node 0xB3DB46592C (.leaf 0x115B4) (.leaf 0x1FF2))))
def nameTree_1373 : NameTree := .node 0xB3B2BD3F25 (.node 0xB38F1255FD (.node 0xB38B12BBFD (.node 0xB381BAD2AC (.leaf 0xA704) (.node 0xB3861B5CFD (.leaf 0xA706) (.leaf 0x1683B))) (.node 0xB38B1C5DFD (.node 0xB38B1B5CFD (.leaf 0x169AB) (.leaf 0x16835)) (.node 0xB38B1CB7FD (.leaf 0x16906) (.leaf 0x1697A)))) (.node 0xB3A562A85B (.node 0xB394ECB2E1 (.node 0xB38F1303FD (.leaf 0x16956) (.leaf 0x16A16)) (.node 0xB39B826041 (.leaf 0x22FD) (.leaf 0x115CD))) (.node 0xB3AE511674 (.node 0xB3A9CF7284 (.leaf 0x1105C) (.leaf 0x12458)) (.node 0xB3B0349764 (.leaf 0x22E3) (.leaf 0x1D8E3))))) (nameTree_1372)
def nameTree_1374 : NameTree := .node 0xB4241A7A30 (.node 0xB424197C30 (.node 0xB424197330 (.node 0xB424196330 (.leaf 0xA983) (.leaf 0x12009)) (.node 0xB424197530 (.leaf 0x1200A) (.leaf 0x1201C))) (.node 0xB424197F30 (.node 0xB424197D30 (.leaf 0x1201D) (.leaf 0x12020)) (.node 0xB4241A7230 (.leaf 0x1202D) (.leaf 0x12040)))) (.node 0xB4241C8630 (.node 0xB4241C7230 (.node 0xB4241A8630 (.leaf 0x12049) (.leaf 0x1204D)) (.node 0xB4241C7A30 (.leaf 0x12055) (.leaf 0x12072))) (.node 0xB4241D7D30 (.node 0xB4241D6330 (.leaf 0x1207A) (.leaf 0x1208D)) (.node 0xB4241D7F30 (.leaf 0x12096) (.leaf 0x12097))))
def nameTree_1375 : NameTree := .node 0xB42277E77F (.node 0xB4068A6D8D (.node 0xB3F9D674D3 (.node 0xB3F19D9EC2 (.leaf 0xAA0) (.node 0xB3F956BF45 (.leaf 0x766) (.leaf 0x1F792))) (.node 0xB40286709C (.node 0xB3FED26B1D (.leaf 0x1D929) (.leaf 0x1155)) (.node 0xB404813BE6 (.leaf 0x10AD2) (.leaf 0x2DD)))) (.node 0xB418FB0AA3 (.node 0xB4103498F8 (.node 0xB40E8F1206 (.leaf 0x10AC2) (.leaf 0x27E4)) (.node 0xB4108672A6 (.leaf 0x2B5B) (.leaf 0x10AE0))) (.node 0xB41DE1B0A4 (.node 0xB41DDFB0A4 (.leaf 0x1016D) (.leaf 0x10ADC)) (.node 0xB41DE9B0A4 (.leaf 0x10AC6) (.leaf 0x10ADB))))) (nameTree_1374)
def nameTree_1376 : NameTree := .node 0xB424267630 (.node 0xB424257630 (.node 0xB424248630 (.node 0xB424247A30 (.leaf 0x121B7) (.leaf 0x121F7)) (.node 0xB424257230 (.leaf 0x121FB) (.leaf 0x12220))) (.node 0xB424258630 (.node 0xB424257A30 (.leaf 0x12228) (.leaf 0x1222A)) (.node 0xB424267230 (.leaf 0x1222C) (.leaf 0x1223E)))) (.node 0xB424287A30 (.node 0xB424268630 (.node 0xB424267A30 (.leaf 0x12248) (.leaf 0x1224C)) (.node 0xB424287230 (.leaf 0x12261) (.leaf 0x1227A))) (.node 0xB4242A7A30 (.node 0xB4242A7230 (.leaf 0x1227F) (.leaf 0x1228F)) (.node 0xB4242A8630 (.leaf 0x12291) (.leaf 0x12292))))
def nameTree_1377 : NameTree := .node 0xB424247230 (.node 0xB424217830 (.node 0xB424207230 (.node 0xB4241F7A30 (.leaf 0x120B5) (.node 0xB4241F8630 (.leaf 0x12100) (.leaf 0x12116))) (.node 0xB424208630 (.node 0xB424207A30 (.leaf 0x12129) (.leaf 0x1212D)) (.node 0xB424217330 (.leaf 0x12137) (.leaf 0x12141)))) (.node 0xB424218330 (.node 0xB424217E30 (.node 0xB424217D30 (.leaf 0x12145) (.leaf 0x1214B)) (.node 0xB424217F30 (.leaf 0x1214E) (.leaf 0x12154))) (.node 0xB424237A30 (.node 0xB424237230 (.leaf 0x12155) (.leaf 0x12157)) (.node 0xB424238630 (.leaf 0x121A0) (.leaf 0x121AA))))) (nameTree_1376)
def nameTree_1378 : NameTree := .node 0xB424328630 (.node 0xB4242D6330 (.node 0xB4242C7230 (.node 0xB4242B7A30 (.leaf 0x12293) (.node 0xB4242B8630 (.leaf 0x122DB) (.leaf 0x122E2))) (.node 0xB4242C7A30 (.node 0xB4242C7630 (.leaf 0x122EB) (.leaf 0x122FC)) (.node 0xB4242C8630 (.leaf 0x122FE) (.leaf 0x12305)))) (.node 0xB4242D7F30 (.node 0xB4242D7530 (.node 0xB4242D7330 (.leaf 0x12311) (.leaf 0x12312)) (.node 0xB4242D7E30 (.leaf 0x12313) (.leaf 0x1231D))) (.node 0xB424327230 (.node 0xB4242D8330 (.leaf 0x12326) (.leaf 0x12328)) (.node 0xB424327A30 (.leaf 0x1235D) (.leaf 0x12363))))) (.node 0xB44929D8EC (.node 0xB440950728 (.node 0xB42753B427 (.leaf 0x1236A) (.node 0xB42B0FA6D3 (.leaf 0xFD96) (.leaf 0x271A))) (.node 0xB445AA4628 (.node 0xB4419CA741 (.leaf 0x1F0A) (.leaf 0x113)) (.node 0xB44673CDC6 (.leaf 0x11666) (.leaf 0x1D0DD)))) (.node 0xB44EE81692 (.node 0xB44C67C101 (.node 0xB449DF0C92 (.leaf 0x65B) (.leaf 0x1091)) (.node 0xB44DDA1F92 (.leaf 0x1F902) (.leaf 0x1096))) (.node 0xB458134914 (.node 0xB4525BCE9B (.leaf 0x1092) (.leaf 0x1123)) (.node 0xB45B0831A7 (.leaf 0x25DD) (.leaf 0x110E)))))
def nameTree_1379 : NameTree := .node 0xB49111F47F (.node 0xB4851CBBFD (.node 0xB482F09B3E (.node 0xB4823EA7DC (.leaf 0x1D74) (.leaf 0x20DB)) (.node 0xB4851CB5FD (.leaf 0x22D6) (.leaf 0x1696B))) (.node 0xB49111EC7F (.node 0xB48D5DE621 (.leaf 0x1698C) (.leaf 0x2CF3)) (.node 0xB49111F07F (.leaf 0xA24D) (.leaf 0xA24A)))) (.node 0xB49D1BF47F (.node 0xB49D1BEC7F (.node 0xB49481209F (.leaf 0xA24B) (.leaf 0x10B62)) (.node 0xB49D1BF07F (.leaf 0xA255) (.leaf 0xA252))) (.node 0xB4A67BD0A5 (.node 0xB4A53C4582 (.leaf 0xA253) (.leaf 0xFD8C)) (.node 0xB4A77EEEB1 (.leaf 0x194D) (.leaf 0xFD0B))))
def nameTree_1380 : NameTree := .node 0xB4823DBC6C (.node 0xB470EAA248 (.node 0xB460E031A7 (.node 0xB45DC831A7 (.leaf 0xF38) (.node 0xB45F8031A7 (.leaf 0x110F) (.leaf 0x1111))) (.node 0xB465CC8F8C (.node 0xB46200AE07 (.leaf 0x1110) (.leaf 0x23DF)) (.node 0xB46F9A88DF (.leaf 0x277) (.leaf 0x1EBA)))) (.node 0xB47B225DFD (.node 0xB4770EB4FD (.node 0xB4723416B6 (.leaf 0x1D185) (.leaf 0x3195)) (.node 0xB477CB5462 (.leaf 0x1699F) (.leaf 0xFC65))) (.node 0xB47F1255FD (.node 0xB47E46BD8C (.leaf 0x16944) (.leaf 0x1F785)) (.node 0xB480ED561D (.leaf 0x168F6) (.leaf 0xDD4))))) (nameTree_1379)
def nameTree_1381 : NameTree := .node 0xB4FACD3A35 (.node 0xB4F5A342F3 (.node 0xB4F4CD3A35 (.node 0xB4F4CD3435 (.leaf 0x1198) (.leaf 0xD7C4)) (.node 0xB4F4CD4035 (.leaf 0x119A) (.leaf 0x119B))) (.node 0xB4F9724058 (.node 0xB4F767A0ED (.leaf 0x1D8F2) (.leaf 0x2A49)) (.node 0xB4FACD3035 (.leaf 0x1D797) (.leaf 0x1180)))) (.node 0xB4FD01D0A7 (.node 0xB4FAF252BE (.node 0xB4FACD4035 (.leaf 0x1182) (.leaf 0x1183)) (.node 0xB4FC191DB9 (.leaf 0xFC49) (.leaf 0x313F))) (.node 0xB500CD2C35 (.node 0xB4FD791DB9 (.leaf 0xD4F) (.leaf 0x313E)) (.node 0xB500CD4035 (.leaf 0x1189) (.leaf 0x118D))))
def nameTree_1382 : NameTree := .node 0xB4F4CD2C35 (.node 0xB4D282A7C6 (.node 0xB4C5DA7E6A (.node 0xB4B101C730 (.leaf 0x3293) (.node 0xB4B3890CAD (.leaf 0x1D822) (.leaf 0xFC21))) (.node 0xB4CBED1CDD (.node 0xB4C8F9424A (.leaf 0x1D181) (.leaf 0xFC71)) (.node 0xB4CDB71546 (.leaf 0x1D77E) (.leaf 0x3014)))) (.node 0xB4E83E17D6 (.node 0xB4DA0075FC (.node 0xB4D6193D5F (.leaf 0x2B7A) (.leaf 0x22EE)) (.node 0xB4DA54F1B5 (.leaf 0x1F961) (.leaf 0x10171))) (.node 0xB4ECCD3A35 (.node 0xB4EAC9057E (.leaf 0x116C3) (.leaf 0x1017C)) (.node 0xB4ECCD4035 (.leaf 0x1176) (.leaf 0x1177))))) (nameTree_1381)
def nameTree_1383 : NameTree := .node 0xB529BA0C93 (.node 0xB52230BDE1 (.node 0xB51C34AEB8 (.node 0xB51C1A0EAC (.leaf 0x110B7) (.leaf 0x110B3)) (.node 0xB51F19E587 (.leaf 0x2A28) (.leaf 0xFE3B))) (.node 0xB527623649 (.node 0xB525624DAA (.leaf 0x1D953) (.leaf 0x59A)) (.node 0xB5276247F7 (.leaf 0x597) (.leaf 0x59B)))) (.node 0xB548553C66 (.node 0xB541585EF2 (.node 0xB534078EF7 (.leaf 0xA83) (.leaf 0x1F728)) (.node 0xB548044D51 (.leaf 0xFF02) (.leaf 0xA81C))) (.node 0xB549044D51 (.node 0xB5485E4812 (.leaf 0x27FA) (.leaf 0x97A)) (.node 0xB54A004D51 (.leaf 0xA80D) (.leaf 0xA812))))
def nameTree_1384 : NameTree := .node 0xB51C1A08AC (.node 0xB50E7B7340 (.node 0xB504E13035 (.node 0xB502E53A35 (.leaf 0x116B) (.node 0xB5032C3B74 (.leaf 0x116F) (.leaf 0x2DF1))) (.node 0xB5072C3B74 (.node 0xB504E53A35 (.leaf 0x1164) (.leaf 0x1167)) (.node 0xB509B5C2B6 (.leaf 0x2DE2) (.leaf 0x111EA)))) (.node 0xB519254A74 (.node 0xB514373B74 (.node 0xB5132C3774 (.leaf 0x10AC3) (.leaf 0x2DF2)) (.node 0xB5186841A0 (.leaf 0x2DF0) (.leaf 0x592))) (.node 0xB51C19FEAC (.node 0xB51A2C3B74 (.leaf 0x2DFA) (.leaf 0x2DE4)) (.node 0xB51C1A02AC (.leaf 0x110B5) (.leaf 0x110B1))))) (nameTree_1383)
def nameTree_1385 : NameTree := .node 0xB578130CFD (.node 0xB5780D5CFD (.node 0xB57712B4FD (.node 0xB5771158FD (.leaf 0x30A6) (.leaf 0x1684E)) (.node 0xB57755CA8C (.leaf 0x1697E) (.leaf 0xFB05))) (.node 0xB5780EFFFD (.node 0xB5780E51FD (.leaf 0x16856) (.leaf 0x16920)) (.node 0xB57812ACFD (.leaf 0x16A34) (.leaf 0x169A6)))) (.node 0xB578F2AE0A (.node 0xB57821FEFD (.node 0xB578160DFD (.leaf 0x16A30) (.leaf 0x168A6)) (.node 0xB578225FFD (.leaf 0x168A4) (.leaf 0x168F1))) (.node 0xB57B225EFD (.node 0xB57B21B3FD (.leaf 0x2C08) (.leaf 0x16879)) (.node 0xB57B2264FD (.leaf 0x1693E) (.leaf 0x1690B))))
def nameTree_1386 : NameTree := .node 0xB56CC45071 (.node 0xB55A044D51 (.node 0xB551044D51 (.node 0xB54D044D51 (.leaf 0xA817) (.node 0xB550044D51 (.leaf 0xA80A) (.leaf 0xA80F))) (.node 0xB5580E4D51 (.node 0xB556044D51 (.leaf 0xA808) (.leaf 0xA81A)) (.node 0xB55850A79D (.leaf 0xA820) (.leaf 0x10E72)))) (.node 0xB56CC44071 (.node 0xB55BF50B4A (.node 0xB55A104D51 (.leaf 0xA815) (.leaf 0xA810)) (.node 0xB56CC43C71 (.leaf 0x1D7F6) (.leaf 0x30A2))) (.node 0xB56CC44971 (.node 0xB56CC44471 (.leaf 0x30A8) (.leaf 0x30A4)) (.node 0xB56CC44A71 (.leaf 0x30F3) (.leaf 0x30AA))))) (nameTree_1385)
def nameTree_1387 : NameTree := .node 0xB59D1BF689 (.node 0xB5986FFDC0 (.node 0xB59111F689 (.node 0xB59111F289 (.leaf 0xA451) (.leaf 0xA44E)) (.node 0xB596BAA75A (.leaf 0xA44F) (.leaf 0xFE4D))) (.node 0xB59C9B21E4 (.node 0xB59C6C96D3 (.leaf 0x2B84) (.leaf 0x1D009)) (.node 0xB59D1BEE89 (.leaf 0x1D244) (.leaf 0xA454)))) (.node 0xB5A5246696 (.node 0xB59F5D8A99 (.node 0xB59D953EC5 (.leaf 0xA452) (.leaf 0x298F)) (.node 0xB5A2AFB2B9 (.leaf 0x11062) (.leaf 0x20DC))) (.node 0xB5B0086C93 (.node 0xB5A7726160 (.leaf 0x115D2) (.leaf 0x1166B)) (.node 0xB5B9AF6195 (.leaf 0x1F3EF) (.leaf 0x6D4))))
def nameTree_1388 : NameTree := .node 0xB59111EE89 (.node 0xB5851B59FD (.node 0xB57F11FEFD (.node 0xB57D0FA8FD (.leaf 0x168F4) (.node 0xB57D50A0AC (.leaf 0x16987) (.leaf 0x1F81F))) (.node 0xB58282B793 (.node 0xB57F12ACFD (.leaf 0x168E6) (.leaf 0x169C3)) (.node 0xB5832F5DF4 (.leaf 0x19F3) (.leaf 0x19FA)))) (.node 0xB58B0EACFD (.node 0xB58B0142E7 (.node 0xB587461393 (.leaf 0x16919) (.leaf 0x19F2)) (.node 0xB58B0DFEFD (.leaf 0x20F) (.leaf 0x168E7))) (.node 0xB58CB41EF1 (.node 0xB58C1C60FD (.leaf 0x169C6) (.leaf 0x1695E)) (.node 0xB58CC225F1 (.leaf 0x10403) (.leaf 0x10405))))) (nameTree_1387)
def nameTree_1389 : NameTree := .node 0xB5CDAD971D (.node 0xB5C608CDA1 (.node 0xB5C606CDA1 (.node 0xB5C604CDA1 (.leaf 0xA935) (.leaf 0xA936)) (.node 0xB5C607CDA1 (.leaf 0xA93D) (.leaf 0xA93C))) (.node 0xB5C60DCDA1 (.node 0xB5C60BCDA1 (.leaf 0xA933) (.leaf 0xA940)) (.node 0xB5CC483EB3 (.leaf 0xA93F) (.leaf 0x2D18)))) (.node 0xB5E83924AE (.node 0xB5E219CEF5 (.node 0xB5DD4121BD (.leaf 0x23B6) (.leaf 0x116C8)) (.node 0xB5E7F61110 (.leaf 0x1DA0B) (.leaf 0x229A))) (.node 0xB5F1869C13 (.node 0xB5ED20DBFC (.leaf 0x22E9) (.leaf 0x1AA7)) (.node 0xB5F4BC332D (.leaf 0x1F6F) (.leaf 0x207D))))
def nameTree_1390 : NameTree := .node 0xB5C602CDA1 (.node 0xB5C5F7CDA1 (.node 0xB5BD5A7439 (.node 0xB5BC7EC4F5 (.leaf 0xA5A) (.node 0xB5BD1D1D8D (.leaf 0x1D6F0) (.leaf 0x4AD))) (.node 0xB5C1DD1E43 (.node 0xB5C0AB626D (.leaf 0x1F644) (.leaf 0x1105E)) (.node 0xB5C5F6CDA1 (.leaf 0x226A) (.leaf 0xA937)))) (.node 0xB5C5FECDA1 (.node 0xB5C5FBCDA1 (.node 0xB5C5F8CDA1 (.leaf 0xA939) (.leaf 0xA934)) (.node 0xB5C5FCCDA1 (.leaf 0xA931) (.leaf 0xA941))) (.node 0xB5C600CDA1 (.node 0xB5C5FFCDA1 (.leaf 0xA93A) (.leaf 0xA930)) (.node 0xB5C601CDA1 (.leaf 0xA93E) (.leaf 0xA938))))) (nameTree_1389)
def nameTree_1391 : NameTree := .node 0xB630F7CA64 (.node 0xB629F7CA64 (.node 0xB628F7CA64 (.node 0xB627F7CA64 (.leaf 0x1E53) (.leaf 0xF57)) (.node 0xB629F3CA64 (.leaf 0xF46) (.leaf 0xF4C))) (.node 0xB62CF7CA64 (.node 0xB62A09CA64 (.leaf 0xF52) (.leaf 0xF5B)) (.node 0xB62D6F4E6D (.leaf 0xF43) (.leaf 0x2545)))) (.node 0xB633FDCA64 (.node 0xB6318AC563 (.node 0xB630FACA64 (.leaf 0xF41) (.leaf 0xF6B)) (.node 0xB633F6CA64 (.leaf 0x1D15A) (.leaf 0xF44))) (.node 0xB635F7CA64 (.node 0xB63408CA64 (.leaf 0xF4E) (.leaf 0xF49)) (.node 0xB63801CA64 (.leaf 0xF55) (.leaf 0xF6C))))
def nameTree_1392 : NameTree := .node 0xB6213B0973 (.node 0xB60201885A (.node 0xB5F8626A73 (.node 0xB5F7EA0CCD (.leaf 0x118EA) (.node 0xB5F8626673 (.leaf 0x1D1AC) (.leaf 0x11042))) (.node 0xB5F8627673 (.node 0xB5F8627073 (.leaf 0x1103A) (.leaf 0x11044)) (.node 0xB5FB6B4001 (.leaf 0x1103C) (.leaf 0x1D7A2)))) (.node 0xB613524356 (.node 0xB605C01C84 (.node 0xB6054DB1A8 (.leaf 0x1F637) (.leaf 0x6D9)) (.node 0xB6081792BC (.leaf 0x1F7B5) (.leaf 0x1154))) (.node 0xB617898EDE (.node 0xB614F2632D (.leaf 0x1F781) (.leaf 0x11E0)) (.node 0xB61D86BDAC (.leaf 0x114C0) (.leaf 0x3217))))) (nameTree_1391)
def nameTree_1393 : NameTree := .node 0xB19C1D8DC3 (.node 0xAF6D19A598 (.node 0xAE45F8D1FF (.node 0xADCC4042B3 (.node 0xAD28A5536E (nameTree_1335) (nameTree_1337)) (.node 0xADF245F08E (nameTree_1339) (nameTree_1341))) (.node 0xAF299D1DB7 (.node 0xAEA11EF689 (nameTree_1342) (nameTree_1344)) (.node 0xAF4337E89D (nameTree_1346) (nameTree_1348)))) (.node 0xB042936BF4 (.node 0xB02E7BC2A9 (.node 0xAFCF7A6C17 (nameTree_1349) (nameTree_1351)) (.node 0xB02F7EC6A9 (nameTree_1353) (nameTree_1355))) (.node 0xB0F9653486 (.node 0xB0BE75B3D4 (nameTree_1357) (nameTree_1359)) (.node 0xB11AE1F3CB (nameTree_1361) (nameTree_1363))))) (.node 0xB4242B7230 (.node 0xB2FF816ADC (.node 0xB23C2C614D (.node 0xB200723AE8 (nameTree_1364) (nameTree_1366)) (.node 0xB2D8120640 (nameTree_1368) (nameTree_1370))) (.node 0xB3DDE1DDFD (.node 0xB381B9D2AC (nameTree_1371) (nameTree_1373)) (.node 0xB4241F7230 (nameTree_1375) (nameTree_1377)))) (.node 0xB54A044D51 (.node 0xB4ACB43915 (.node 0xB45BD84F3F (nameTree_1378) (nameTree_1380)) (.node 0xB502E13035 (nameTree_1382) (nameTree_1384))) (.node 0xB5BBBED0A5 (.node 0xB57C1C5EFD (nameTree_1386) (nameTree_1388)) (.node 0xB5F709E98C (nameTree_1390) (nameTree_1392)))))
def nameTree_1394 : NameTree := .node 0xB65899F4A8 (.node 0xB63FF7CA64 (.node 0xB63A02CA64 (.node 0xB63902CA64 (.leaf 0xF64) (.node 0xB639F7CA64 (.leaf 0xF65) (.leaf 0xF50))) (.node 0xB63DCF6324 (.node 0xB63A03CA64 (.leaf 0xF59) (.leaf 0xF4A)) (.node 0xB63DF79440 (.leaf 0xFCAE) (.leaf 0xFD31)))) (.node 0xB64B2A1185 (.node 0xB6475E1133 (.node 0xB641AD6243 (.leaf 0xF5E) (.leaf 0x2B88)) (.node 0xB6485E1133 (.leaf 0xA851) (.leaf 0xA86A))) (.node 0xB6513F2851 (.node 0xB64EB4486D (.leaf 0x1D16D) (.leaf 0x1F739)) (.node 0xB65592C750 (.leaf 0x1A68) (.leaf 0x1F8B))))) (.node 0xB66DEA9E48 (.node 0xB65EB19686 (.node 0xB65B6E0441 (.leaf 0x838) (.node 0xB65BABF199 (.leaf 0x30FC) (.leaf 0x839))) (.node 0xB6609A5A02 (.node 0xB6608A6A02 (.leaf 0x1D12E) (.leaf 0x1067)) (.node 0xB66C9F2B1D (.leaf 0x1068) (.leaf 0x1D051)))) (.node 0xB67A0EB7FD (.node 0xB67A0E09FD (.node 0xB67A0E06FD (.leaf 0x1D187) (.leaf 0x168D7)) (.node 0xB67A0E5DFD (.leaf 0x168DA) (.leaf 0x16937))) (.node 0xB67A1255FD (.node 0xB67A0EFFFD (.leaf 0x16966) (.leaf 0x16A0F)) (.node 0xB67A16B8FD (.leaf 0x16915) (.leaf 0x1698E)))))
def nameTree_1395 : NameTree := .node 0xB6892207FD (.node 0xB68911B0FD (.node 0xB68505DD07 (.node 0xB6811CB4FD (.leaf 0x169D4) (.leaf 0x169A8)) (.node 0xB6865E51A5 (.leaf 0x2A5B) (.leaf 0x1E76))) (.node 0xB68915FFFD (.node 0xB689144CFD (.leaf 0x1688B) (.leaf 0x16851)) (.node 0xB6891C06FD (.leaf 0x16A1E) (.leaf 0x168D3)))) (.node 0xB68A0EB7FD (.node 0xB68A0D5BFD (.node 0xB689225DFD (.leaf 0x168D6) (.leaf 0x16940)) (.node 0xB68A0DFAFD (.leaf 0x1683F) (.leaf 0x168B4))) (.node 0xB68A1255FD (.node 0xB68A1207FD (.leaf 0x169CE) (.leaf 0x168D4)) (.node 0xB68A1303FD (.leaf 0x16959) (.leaf 0x16A20))))
def nameTree_1396 : NameTree := .node 0xB68012ACFD (.node 0xB67D1BAFFD (.node 0xB67D0E0AFD (.node 0xB67A22B5FD (.leaf 0x16918) (.node 0xB67AC90007 (.leaf 0x16970) (.leaf 0x21))) (.node 0xB67D14FFFD (.node 0xB67D140EFD (.leaf 0x168EB) (.leaf 0x168CA)) (.node 0xB67D18A8FD (.leaf 0x16A28) (.leaf 0x16973)))) (.node 0xB67F174CFD (.node 0xB67D1CB7FD (.node 0xB67D1C06FD (.leaf 0x1688E) (.leaf 0x168D0)) (.node 0xB67D1CB8FD (.leaf 0x1697D) (.leaf 0x16980))) (.node 0xB6800E06FD (.node 0xB6800D58FD (.leaf 0x1682C) (.leaf 0x16847)) (.node 0xB6800E60FD (.leaf 0x168CF) (.leaf 0x16902))))) (nameTree_1395)
def nameTree_1397 : NameTree := .node 0xB699AC9D25 (.node 0xB693066B1B (.node 0xB691D1FB24 (.node 0xB691D1F124 (.leaf 0xA2D5) (.leaf 0x1DD4)) (.node 0xB691D20224 (.leaf 0x1DD5) (.leaf 0x1DD6))) (.node 0xB695BD8025 (.node 0xB693F097BD (.leaf 0x1B72) (.leaf 0x25A5)) (.node 0xB6999A1970 (.leaf 0x2B73) (.leaf 0x4DC1)))) (.node 0xB69D1EF689 (.node 0xB69D0D0A19 (.node 0xB69A05C8D3 (.leaf 0x1C7C) (.leaf 0x1D829)) (.node 0xB69D1BF689 (.leaf 0x16F30) (.leaf 0xA2F8))) (.node 0xB69E159A58 (.node 0xB69D1EFA9D (.leaf 0xA301) (.leaf 0xA2E5)) (.node 0xB69E5BC021 (.leaf 0xFE49) (.leaf 0x277A))))
def nameTree_1398 : NameTree := .node 0xB69111FA9D (.node 0xB68F184753 (.node 0xB68C077439 (.node 0xB68A22B4FD (.leaf 0x16962) (.node 0xB68B0F03FD (.leaf 0x169BC) (.leaf 0x16A18))) (.node 0xB68F115FFD (.node 0xB68F0E5DFD (.leaf 0x1B6B) (.leaf 0x168FA)) (.node 0xB68F1264FD (.leaf 0x16849) (.leaf 0x16922)))) (.node 0xB69111EE89 (.node 0xB6900EB8FD (.node 0xB68F2255FD (.leaf 0x201A) (.leaf 0x1692F)) (.node 0xB69022B8FD (.leaf 0x169A7) (.leaf 0x169C1))) (.node 0xB69111F689 (.node 0xB69111F29D (.leaf 0xA2F3) (.leaf 0xA2D7)) (.node 0xB69111F69D (.leaf 0xA2F1) (.leaf 0xA2D4))))) (nameTree_1397)
def nameTree_1399 : NameTree := .node 0xB6FEEA3DB9 (.node 0xB6FEEA2C4E (.node 0xB6F3C49B06 (.node 0xB6F0459545 (.leaf 0x1D747) (.leaf 0x1F22)) (.node 0xB6FEAD68B9 (.leaf 0x272C) (.leaf 0x111C))) (.node 0xB6FEEA39B4 (.node 0xB6FEEA3301 (.leaf 0xA96D) (.leaf 0x111A)) (.node 0xB6FEEA3B0B (.leaf 0xA968) (.leaf 0x1118)))) (.node 0xB7000B0A4E (.node 0xB6FF21EF01 (.node 0xB6FF21E84E (.leaf 0xA969) (.leaf 0x115C)) (.node 0xB6FF21F9B9 (.leaf 0x115D) (.leaf 0x1116))) (.node 0xB7000B190B (.node 0xB7000B1101 (.leaf 0x1127) (.leaf 0xA974)) (.node 0xB702C2EB34 (.leaf 0x111F) (.leaf 0x1D7DD))))
def nameTree_1400 : NameTree := .node 0xB6DD31C381 (.node 0xB6AAF90B73 (.node 0xB6A11EFA9D (.node 0xB69F4313DD (.leaf 0x27AA) (.node 0xB6A11EF689 (.leaf 0x2197) (.leaf 0xA307))) (.node 0xB6A45ACD21 (.node 0xB6A3B9F079 (.leaf 0xA2EB) (.leaf 0x2226)) (.node 0xB6A82771CF (.leaf 0x2779) (.leaf 0x1219E)))) (.node 0xB6CE1739BB (.node 0xB6C09A4458 (.node 0xB6B9FEABBB (.leaf 0x1209C) (.leaf 0xFB7D)) (.node 0xB6CC6FDCFD (.leaf 0x1E87A) (.leaf 0x8AF))) (.node 0xB6CF3E9B2E (.node 0xB6CED85148 (.leaf 0xFB65) (.leaf 0x23BE)) (.node 0xB6D2263AA4 (.leaf 0x2ACA) (.leaf 0xFC55))))) (nameTree_1399)
def nameTree_1401 : NameTree := .node 0xB7627966F8 (.node 0xB73B4277F4 (.node 0xB725D8B619 (.node 0xB70F3E2FC2 (.leaf 0x1D7DC) (.node 0xB718584058 (.leaf 0x272D) (.leaf 0x1E87F))) (.node 0xB7328ABD93 (.node 0xB72E8200BC (.leaf 0x23EB) (.leaf 0x1D823)) (.node 0xB739CAC39A (.leaf 0x11D44) (.leaf 0x113C)))) (.node 0xB74DFF13F6 (.node 0xB7429675D2 (.node 0xB73C5082C0 (.leaf 0x11D41) (.leaf 0x11D9)) (.node 0xB744CA2729 (.leaf 0x2920) (.leaf 0x11D42))) (.node 0xB753791EB1 (.node 0xB7532B7913 (.leaf 0x2F6) (.leaf 0x1F745)) (.node 0xB75790D0B0 (.leaf 0x1EB5) (.leaf 0x10913))))) (.node 0xB7801CF8D0 (.node 0xB76F3B557A (.node 0xB767FB1AEE (.leaf 0x1F7C4) (.node 0xB7684BC717 (.leaf 0x10987) (.leaf 0xFB1F))) (.node 0xB776CA0D36 (.node 0xB7753A627A (.leaf 0x1136B) (.leaf 0x1136A)) (.node 0xB77B55F214 (.leaf 0x16B4) (.leaf 0x217E)))) (.node 0xB78631BCE1 (.node 0xB783079AAB (.node 0xB782BC1489 (.leaf 0x27E5) (.leaf 0x1DA61)) (.node 0xB7846FC030 (.leaf 0x29CA) (.leaf 0x1F62D))) (.node 0xB78BB506D8 (.node 0xB786BA51D1 (.leaf 0xFC86) (.leaf 0xD7ED)) (.node 0xB78C8C1A95 (.leaf 0x1ED) (.leaf 0x10B60)))))
def nameTree_1402 : NameTree := .node 0xB7B54A0AE0 (.node 0xB7B19F3E17 (.node 0xB7A803A5DD (.node 0xB7A55038A3 (.leaf 0x1949) (.leaf 0x1107F)) (.node 0xB7A962A342 (.leaf 0x1C7B) (.leaf 0x1105D))) (.node 0xB7B5480AE0 (.node 0xB7B2D8B7A9 (.leaf 0x34B) (.leaf 0x23C6)) (.node 0xB7B5490AE0 (.leaf 0xA81B) (.leaf 0xA80C)))) (.node 0xB7B5510AE0 (.node 0xB7B54E0AE0 (.node 0xB7B54D0AE0 (.leaf 0xA816) (.leaf 0xA809)) (.node 0xB7B5500AE0 (.leaf 0xA822) (.leaf 0xA80E))) (.node 0xB7B5530AE0 (.node 0xB7B5520AE0 (.leaf 0xA807) (.leaf 0xA81F)) (.node 0xB7B5540AE0 (.leaf 0xA81D) (.leaf 0xA818))))
def nameTree_1403 : NameTree := .node 0xB7A27BC7FC (.node 0xB7965A6275 (.node 0xB7943278B9 (.node 0xB78FB354AF (.leaf 0x2B53) (.node 0xB7916E9251 (.leaf 0x2904) (.leaf 0xFF70))) (.node 0xB7965A4E75 (.node 0xB796419230 (.leaf 0x10174) (.leaf 0x163)) (.node 0xB7965A5675 (.leaf 0xBBE) (.leaf 0xBC8)))) (.node 0xB7966E6275 (.node 0xB796625675 (.node 0xB7965E5275 (.leaf 0xBCC) (.leaf 0xBC7)) (.node 0xB796685C75 (.leaf 0xBC0) (.leaf 0xBCB))) (.node 0xB7A14B7C4A (.node 0xB79D5080EE (.leaf 0xBC2) (.leaf 0x10A76)) (.node 0xB7A14B7F59 (.leaf 0x10A6D) (.leaf 0x10A7C))))) (nameTree_1402)
def nameTree_1404 : NameTree := .node 0xB7D1D2E453 (.node 0xB7C9A80B53 (.node 0xB7C43FA0E8 (.node 0xB7C41A053A (.leaf 0x24F4) (.leaf 0x2315)) (.node 0xB7C79D81AE (.leaf 0x24EB) (.leaf 0x1205C))) (.node 0xB7CCD5D7F2 (.node 0xB7CBB40353 (.leaf 0x1D786) (.leaf 0x1D776)) (.node 0xB7CDD1D1AA (.leaf 0x10376) (.leaf 0x964)))) (.node 0xB7D6886C56 (.node 0xB7D6886A56 (.node 0xB7D6886956 (.leaf 0xA8FA) (.leaf 0x1B09E)) (.node 0xB7D6886B56 (.leaf 0x1B09F) (.leaf 0x1B0A0))) (.node 0xB7D6886E56 (.node 0xB7D6886D56 (.leaf 0x1B0A1) (.leaf 0x1B0A2)) (.node 0xB7D6886F56 (.leaf 0x1B0A3) (.leaf 0x1B0A4))))
def nameTree_1405 : NameTree := .node 0xB7BC53C8A5 (.node 0xB7B64532C5 (.node 0xB7B55A0AE0 (.node 0xB7B5580AE0 (.leaf 0xA819) (.node 0xB7B5590AE0 (.leaf 0xA81E) (.leaf 0xA821))) (.node 0xB7B63D2EC5 (.node 0xB7B63D2AC5 (.leaf 0xA814) (.leaf 0x1A63)) (.node 0xB7B63D32C5 (.leaf 0x1A6F) (.leaf 0x1A71)))) (.node 0xB7B6513EC5 (.node 0xB7B64B42C5 (.node 0xB7B64B38C5 (.leaf 0x1A66) (.leaf 0x1A70)) (.node 0xB7B6512EC5 (.leaf 0x1A6D) (.leaf 0x1A67))) (.node 0xB7BA55B4A5 (.node 0xB7B733033D (.leaf 0x1A6A) (.leaf 0x1F201)) (.node 0xB7BAAB3D61 (.leaf 0x24EC) (.leaf 0x337C))))) (nameTree_1404)
def nameTree_1406 : NameTree := .node 0xB7E4886956 (.node 0xB7DE886D56 (.node 0xB7DE886B56 (.node 0xB7DE886A56 (.leaf 0x1B0A9) (.leaf 0x1B0AA)) (.node 0xB7DE886C56 (.leaf 0x1B0AB) (.leaf 0x1B0AC))) (.node 0xB7DE886F56 (.node 0xB7DE886E56 (.leaf 0x1B0AD) (.leaf 0x1B0AE)) (.node 0xB7DF8009B8 (.leaf 0x1B0AF) (.leaf 0x1F58D)))) (.node 0xB7E4886D56 (.node 0xB7E4886B56 (.node 0xB7E4886A56 (.leaf 0x1B0BA) (.leaf 0x1B0BB)) (.node 0xB7E4886C56 (.leaf 0x1B0BC) (.leaf 0x1B0BD))) (.node 0xB7E4886F56 (.node 0xB7E4886E56 (.leaf 0x1B0BE) (.leaf 0x1B0BF)) (.node 0xB7E4887056 (.leaf 0x1B0C0) (.leaf 0x1B0C1))))
def nameTree_1407 : NameTree := .node 0xB7DE886956 (.node 0xB7DA886956 (.node 0xB7D6B30B53 (.node 0xB7D6887156 (.leaf 0x1B0A5) (.node 0xB7D6A80B53 (.leaf 0x1B0A6) (.leaf 0x1D785))) (.node 0xB7D7D8A24C (.node 0xB7D7696F79 (.leaf 0x1D787) (.leaf 0x101E2)) (.node 0xB7D8A81153 (.leaf 0x2039) (.leaf 0x1D780)))) (.node 0xB7DA886D56 (.node 0xB7DA886B56 (.node 0xB7DA886A56 (.leaf 0x1B0B3) (.leaf 0x1B0B4)) (.node 0xB7DA886C56 (.leaf 0x1B0B5) (.leaf 0x1B0B6))) (.node 0xB7DA886F56 (.node 0xB7DA886E56 (.leaf 0x1B0B7) (.leaf 0x1B0B8)) (.node 0xB7DAA11753 (.leaf 0x1B0B9) (.leaf 0x1D783))))) (nameTree_1406)
def nameTree_1408 : NameTree := .node 0xB81CFB4E58 (.node 0xB7FE7922BF (.node 0xB7EA886B56 (.node 0xB7EA886956 (.leaf 0x52E) (.node 0xB7EA886A56 (.leaf 0x1B0B0) (.leaf 0x1B0B1))) (.node 0xB7F620A0EF (.node 0xB7F1BCDFAA (.leaf 0x1B0B2) (.leaf 0xFF3F)) (.node 0xB7FD71D74F (.leaf 0x1735) (.leaf 0x4A2)))) (.node 0xB80B9DDA25 (.node 0xB8096C13EF (.node 0xB806866D36 (.leaf 0x1D9DB) (.leaf 0x10AC0)) (.node 0xB80A72557D (.leaf 0xFD95) (.leaf 0x1F960))) (.node 0xB815CFEEC7 (.node 0xB80C427A79 (.leaf 0x23AC) (.leaf 0x1F7BA)) (.node 0xB81B9ECB9C (.leaf 0xFB21) (.leaf 0x6AC))))) (.node 0xB8484BD4AA (.node 0xB837CB83D1 (.node 0xB81DF24058 (.leaf 0x1E87C) (.node 0xB82FAF3A4F (.leaf 0x1E87E) (.leaf 0x4AA))) (.node 0xB83BCBE2BC (.node 0xB837EF53FF (.leaf 0x1D880) (.leaf 0x32AC)) (.node 0xB83E23FEDA (.leaf 0x1CC1) (.leaf 0x1D8F5)))) (.node 0xB84F4C65EC (.node 0xB84D8AD3B0 (.node 0xB84981CDB0 (.leaf 0x1D245) (.leaf 0x10911)) (.node 0xB84D8DE689 (.leaf 0x1090E) (.leaf 0xE0027))) (.node 0xB85795E7FE (.node 0xB85086D6B0 (.leaf 0xFC56) (.leaf 0x10914)) (.node 0xB860CE47D6 (.leaf 0x11234) (.leaf 0x2AD4)))))
def nameTree_1409 : NameTree := .node 0xB88F13886A (.node 0xB88B0EB8FD (.node 0xB88A889B88 (.node 0xB8869D5372 (.leaf 0x169C2) (.leaf 0x1D9A6)) (.node 0xB88B0EACFD (.leaf 0x1253F) (.leaf 0x16971))) (.node 0xB88B2264FD (.node 0xB88B0F03FD (.leaf 0x169CA) (.leaf 0x16A2A)) (.node 0xB88C38672C (.leaf 0x1691B) (.leaf 0x2515)))) (.node 0xB8977ED1E3 (.node 0xB895117CF3 (.node 0xB890CA10F4 (.leaf 0x228B) (.leaf 0x2185)) (.node 0xB8951D84F3 (.leaf 0x12182) (.leaf 0x12385))) (.node 0xB8A2B386CE (.node 0xB89D44FC5C (.leaf 0x194E) (.leaf 0x1F5B8)) (.node 0xB8A93C7EEE (.leaf 0x1D17) (.leaf 0x10A74))))
def nameTree_1410 : NameTree := .node 0xB8851CB5FD (.node 0xB8770EB4FD (.node 0xB868233993 (.node 0xB8625EB001 (.leaf 0xC22) (.node 0xB865012FCB (.leaf 0x1F472) (.leaf 0x1D882))) (.node 0xB8770123F3 (.node 0xB86C512EA8 (.leaf 0x1FC4) (.leaf 0x76A)) (.node 0xB8770D58FD (.leaf 0x2A91) (.leaf 0x1684C)))) (.node 0xB87B2316FD (.node 0xB87B22BBFD (.node 0xB87B12B4FD (.leaf 0x16978) (.leaf 0x16984)) (.node 0xB87B22BFFD (.leaf 0x169BD) (.leaf 0x169E7))) (.node 0xB87F12BBFD (.node 0xB87D4536C8 (.leaf 0x16A1F) (.leaf 0x11C07)) (.node 0xB881CCCC5D (.leaf 0x169CD) (.leaf 0x23F))))) (nameTree_1409)
def nameTree_1411 : NameTree := .node 0xB915BB0B95 (.node 0xB915BB0795 (.node 0xB9046639E3 (.node 0xB903E3EE0E (.leaf 0x1E66) (.leaf 0x9FD)) (.node 0xB911693432 (.leaf 0x1D790) (.leaf 0x750))) (.node 0xB915BB0995 (.node 0xB915BB0895 (.leaf 0x1D4D0) (.leaf 0x1D4D1)) (.node 0xB915BB0A95 (.leaf 0x1D4D2) (.leaf 0x1D4D3)))) (.node 0xB915BB0F95 (.node 0xB915BB0D95 (.node 0xB915BB0C95 (.leaf 0x1D4D4) (.leaf 0x1D4D5)) (.node 0xB915BB0E95 (.leaf 0x1D4D6) (.leaf 0x1D4D7))) (.node 0xB915BB1195 (.node 0xB915BB1095 (.leaf 0x1D4D8) (.leaf 0x1D4D9)) (.node 0xB915BB1295 (.leaf 0x1D4DA) (.leaf 0x1D4DB))))
def nameTree_1412 : NameTree := .node 0xB8FEB2A131 (.node 0xB8CB42D920 (.node 0xB8B0FA5AF0 (.node 0xB8AE4C9E95 (.leaf 0x337D) (.node 0xB8AE84B0D1 (.leaf 0x83A) (.leaf 0x23FA))) (.node 0xB8C1A35E07 (.node 0xB8BDCA7542 (.leaf 0x9EF) (.leaf 0x1F75C)) (.node 0xB8C71747F7 (.leaf 0xAA67) (.leaf 0xA700)))) (.node 0xB8E09EE41C (.node 0xB8D9444D58 (.node 0xB8CF79EE46 (.leaf 0x2562) (.leaf 0x1D080)) (.node 0xB8E09EE369 (.leaf 0x1E88B) (.leaf 0x111D))) (.node 0xB8E1B1192D (.node 0xB8E09EE76E (.leaf 0x111B) (.leaf 0x112B)) (.node 0xB8E53137FF (.leaf 0xAA) (.leaf 0x1E4F))))) (nameTree_1411)
def nameTree_1413 : NameTree := .node 0xB92B1CE40B (.node 0xB91A6161ED (.node 0xB918711BD6 (.node 0xB9186A1BD6 (.leaf 0x6AD) (.leaf 0x6C6)) (.node 0xB918742BD6 (.leaf 0x6CB) (.leaf 0x6C8))) (.node 0xB92A335D6A (.node 0xB91F684A01 (.leaf 0x2505) (.leaf 0x5AE)) (.node 0xB92A418637 (.leaf 0x122B2) (.leaf 0x16B72)))) (.node 0xB9545D61C3 (.node 0xB933BA14C1 (.node 0xB92EA3DB5E (.leaf 0x122C5) (.leaf 0x1680B)) (.node 0xB948228413 (.leaf 0x2BC6) (.leaf 0x1F74C))) (.node 0xB95CE81B5D (.node 0xB95720A3AD (.leaf 0x1F1A0) (.leaf 0xA641)) (.node 0xB95E1479F9 (.leaf 0x1D85E) (.leaf 0x104A5))))
def nameTree_1414 : NameTree := .node 0xB918691DD6 (.node 0xB915BB1A95 (.node 0xB915BB1695 (.node 0xB915BB1495 (.leaf 0x1D4DC) (.node 0xB915BB1595 (.leaf 0x1D4DD) (.leaf 0x1D4DE))) (.node 0xB915BB1895 (.node 0xB915BB1795 (.leaf 0x1D4DF) (.leaf 0x1D4E0)) (.node 0xB915BB1995 (.leaf 0x1D4E1) (.leaf 0x1D4E2)))) (.node 0xB915BB1E95 (.node 0xB915BB1C95 (.node 0xB915BB1B95 (.leaf 0x1D4E3) (.leaf 0x1D4E4)) (.node 0xB915BB1D95 (.leaf 0x1D4E5) (.leaf 0x1D4E6))) (.node 0xB915BB2095 (.node 0xB915BB1F95 (.leaf 0x1D4E7) (.leaf 0x1D4E8)) (.node 0xB9185C1BD6 (.leaf 0x1D4E9) (.leaf 0x6D5))))) (nameTree_1413)
def nameTree_1415 : NameTree := .node 0xB9AE31F172 (.node 0xB97DA24030 (.node 0xB96ECD7E43 (.node 0xB9641386F9 (.leaf 0x12373) (.node 0xB96BBA7AAB (.leaf 0x104A4) (.leaf 0x274D))) (.node 0xB97861D283 (.node 0xB972E88276 (.leaf 0x1DA01) (.leaf 0x1DA85)) (.node 0xB97BEB0968 (.leaf 0x2996) (.leaf 0x1018C)))) (.node 0xB989FC077C (.node 0xB97E0B8EE2 (.node 0xB97DA84630 (.leaf 0xCE1) (.leaf 0xCE0)) (.node 0xB987FD9086 (.leaf 0xFF10) (.leaf 0x20DD))) (.node 0xB9961680C3 (.node 0xB990D97687 (.leaf 0x20E2) (.leaf 0x141F)) (.node 0xB9A72BDE2B (.leaf 0x111D9) (.leaf 0x2C8F))))) (.node 0xB9B90A8BEB (.node 0xB9B335630F (.node 0xB9AE36F172 (.leaf 0x1876) (.node 0xB9AE3DF172 (.leaf 0x1874) (.leaf 0x1875))) (.node 0xB9B529E22B (.node 0xB9B46205E2 (.leaf 0x2926) (.leaf 0x4D9)) (.node 0xB9B59F7A41 (.leaf 0x3E9) (.leaf 0x1E49)))) (.node 0xB9C0F68B6D (.node 0xB9BBBED0A5 (.node 0xB9BB27DA6D (.leaf 0x2AE4) (.leaf 0x111EE)) (.node 0xB9C0F360D7 (.leaf 0xA59) (.leaf 0x11080))) (.node 0xB9C7FC70C5 (.node 0xB9C7BAA4BF (.leaf 0x1714) (.leaf 0xA71C)) (.node 0xB9CAE256C3 (.leaf 0x22AF) (.leaf 0xA618)))))
def nameTree_1416 : NameTree := .node 0xBA328880A1 (.node 0xBA2979C440 (.node 0xBA0CCE4B85 (.node 0xBA03BEEB27 (.leaf 0x1D7A8) (.leaf 0x29E4)) (.node 0xBA21DAABC1 (.leaf 0x2C25) (.leaf 0x111EB))) (.node 0xBA2C8886A1 (.node 0xBA29B788A1 (.leaf 0x1D15B) (.leaf 0x1BC45)) (.node 0xBA2E8881A1 (.leaf 0x1BC0D) (.leaf 0x1BC0E)))) (.node 0xBA358881A1 (.node 0xBA328886A1 (.node 0xBA328881A1 (.leaf 0x1BC1F) (.leaf 0x1BC30)) (.node 0xBA338880A1 (.leaf 0x1BC29) (.leaf 0x1BC0F))) (.node 0xBA361CED3D (.node 0xBA358886A1 (.leaf 0x1BC1D) (.leaf 0x1BC27)) (.node 0xBA368880A1 (.leaf 0xFF0A) (.leaf 0x1BC1E))))
def nameTree_1417 : NameTree := .node 0xB9F9653EA5 (.node 0xB9DA84510F (.node 0xB9D2EA5EC3 (.node 0xB9D0A82E12 (.leaf 0x111EF) (.node 0xB9D29DE454 (.leaf 0x12279) (.leaf 0x24F9))) (.node 0xB9D89CF154 (.node 0xB9D7988272 (.leaf 0xA616) (.leaf 0x10152)) (.node 0xB9D8E256C3 (.leaf 0x24F8) (.leaf 0xA619)))) (.node 0xB9F22BBD44 (.node 0xB9ED110761 (.node 0xB9EC65FEEF (.leaf 0x1FC3) (.leaf 0x26B1)) (.node 0xB9EE6A3077 (.leaf 0x2B0A) (.leaf 0x2266))) (.node 0xB9F4853200 (.node 0xB9F32422B5 (.leaf 0xDD1) (.leaf 0xFCB1)) (.node 0xB9F8CAF42E (.leaf 0x350) (.leaf 0x1F0C5))))) (nameTree_1416)
def nameTree_1418 : NameTree := .node 0xBA75F6E60F (.node 0xBA62EB4D81 (.node 0xBA47D45742 (.node 0xBA4648E310 (.leaf 0x1BC60) (.leaf 0x1252B)) (.node 0xBA6007816F (.leaf 0x1D1AF) (.leaf 0x1F604))) (.node 0xBA719C3D7D (.node 0xBA701009F8 (.leaf 0x73C) (.leaf 0x273A)) (.node 0xBA75EAB7D1 (.leaf 0x4DF7) (.leaf 0x2C15)))) (.node 0xBA7B2316FD (.node 0xBA79C978A1 (.node 0xBA77125DFD (.leaf 0x2C1D) (.leaf 0x16927)) (.node 0xBA7B22BFFD (.leaf 0xFD68) (.leaf 0x169EF))) (.node 0xBA859D5D52 (.node 0xBA7F1303FD (.leaf 0x16A25) (.leaf 0x16A0C)) (.node 0xBA8A0C440A (.leaf 0x1DA37) (.leaf 0x11132))))
def nameTree_1419 : NameTree := .node 0xBA3FB78AA1 (.node 0xBA3B8881A1 (.node 0xBA3A8886A1 (.node 0xBA37B77BA1 (.leaf 0x1BC28) (.node 0xBA388881A1 (.leaf 0x1BC59) (.leaf 0x1BC0C))) (.node 0xBA3B887EA1 (.node 0xBA3B887DA1 (.leaf 0x1BC10) (.leaf 0x1BC20)) (.node 0xBA3B8880A1 (.leaf 0x1BC3F) (.leaf 0x1BC3C)))) (.node 0xBA3C8886A1 (.node 0xBA3B8886A1 (.node 0xBA3B8883A1 (.leaf 0x1BC3B) (.leaf 0x1BC34)) (.node 0xBA3B8887A1 (.leaf 0x1BC2A) (.leaf 0x1BC32))) (.node 0xBA3F8885A1 (.node 0xBA3D8881A1 (.leaf 0x1BC36) (.leaf 0x1BC54)) (.node 0xBA3FAD7CA1 (.leaf 0x1BC3A) (.leaf 0x1BC5F))))) (nameTree_1418)
def nameTree_1420 : NameTree := .node 0xBABEC28D19 (.node 0xBAB8C28F19 (.node 0xBAB8C28D19 (.node 0xBAB8C28C19 (.leaf 0x1B013) (.leaf 0x1B006)) (.node 0xBAB8C28E19 (.leaf 0x1B007) (.leaf 0x1B008))) (.node 0xBABB819167 (.node 0xBABA6F9167 (.leaf 0x1B009) (.leaf 0x11C77)) (.node 0xBABEC28C19 (.leaf 0x11C84) (.leaf 0x1B014)))) (.node 0xBAC2882543 (.node 0xBAC1469707 (.node 0xBABEC28E19 (.leaf 0x1B015) (.leaf 0x1B016)) (.node 0xBAC26F9167 (.leaf 0x374) (.leaf 0x11C73))) (.node 0xBAC4C28D19 (.node 0xBAC4C28C19 (.leaf 0x1D774) (.leaf 0x1B00A)) (.node 0xBAC4C28E19 (.leaf 0x1B00B) (.leaf 0x1B00C))))
def nameTree_1421 : NameTree := .node 0xBAB4C29119 (.node 0xBAAF970072 (.node 0xBA9F5EF8F7 (.node 0xBA90A54F91 (.leaf 0x10339) (.node 0xBA9160976B (.leaf 0x1F758) (.leaf 0x1033E))) (.node 0xBAA990C7CA (.node 0xBAA216367D (.leaf 0x1D969) (.leaf 0x2B0B)) (.node 0xBAAC3AB19B (.leaf 0x1B70) (.leaf 0x2265)))) (.node 0xBAB4C28D19 (.node 0xBAB0C28D19 (.node 0xBAB0C28C19 (.leaf 0x2AE1) (.leaf 0x1B002)) (.node 0xBAB0C28E19 (.leaf 0x1B003) (.leaf 0x1B004))) (.node 0xBAB4C28F19 (.node 0xBAB4C28E19 (.leaf 0x1B00F) (.leaf 0x1B010)) (.node 0xBAB4C29019 (.leaf 0x1B011) (.leaf 0x1B012))))) (nameTree_1420)
def nameTree_1422 : NameTree := .node 0xBAD16F9167 (.node 0xBAC7F82543 (.node 0xBAC56E9167 (.node 0xBAC4C29019 (.leaf 0x1B00D) (.node 0xBAC52F8CD9 (.leaf 0x1B00E) (.leaf 0x1D106))) (.node 0xBAC76F9167 (.node 0xBAC5809167 (.leaf 0x11C75) (.leaf 0x11C79)) (.node 0xBAC7F2A544 (.leaf 0x11C7F) (.leaf 0x16ED)))) (.node 0xBACA6F9167 (.node 0xBAC9859E8D (.node 0xBAC8320A4F (.leaf 0x1D784) (.leaf 0x1F7A9)) (.node 0xBACA444E8E (.leaf 0x1DA6F) (.leaf 0x1F97))) (.node 0xBACB6F9167 (.node 0xBACB06B4A4 (.leaf 0x11C8C) (.leaf 0x2D1)) (.node 0xBACB7A9167 (.leaf 0x11C7B) (.leaf 0x11C82))))) (.node 0xBAD6886E56 (.node 0xBAD6886A56 (.node 0xBAD2FE40C9 (.leaf 0x11C86) (.node 0xBAD6886956 (.leaf 0x1B47) (.leaf 0x1B017))) (.node 0xBAD6886C56 (.node 0xBAD6886B56 (.leaf 0x1B018) (.leaf 0x1B019)) (.node 0xBAD6886D56 (.leaf 0x1B01A) (.leaf 0x1B01B)))) (.node 0xBADA886956 (.node 0xBAD6887056 (.node 0xBAD6886F56 (.leaf 0x1B01C) (.leaf 0x1B01D)) (.node 0xBAD6887156 (.leaf 0x1B01E) (.leaf 0x1B01F))) (.node 0xBADA886B56 (.node 0xBADA886A56 (.leaf 0x1B032) (.leaf 0x1B033)) (.node 0xBADA886C56 (.leaf 0x1B034) (.leaf 0x1B035)))))
def nameTree_1423 : NameTree := .node 0xBAEC80C89B (.node 0xBAEA886C56 (.node 0xBAEA886A56 (.node 0xBAEA886956 (.leaf 0x1B03A) (.leaf 0x1B02B)) (.node 0xBAEA886B56 (.leaf 0x1B02C) (.leaf 0x1B02D))) (.node 0xBAEA886E56 (.node 0xBAEA886D56 (.leaf 0x1B02E) (.leaf 0x1B02F)) (.node 0xBAEA886F56 (.leaf 0x1B030) (.leaf 0x1B031)))) (.node 0xBAEC80DC9B (.node 0xBAEC80D09B (.node 0xBAEC80CC9B (.leaf 0x13D3) (.leaf 0x13D5)) (.node 0xBAEC80D69B (.leaf 0x13D7) (.leaf 0x13D9))) (.node 0xBAEC83C89B (.node 0xBAEC80DD9B (.leaf 0x13DA) (.leaf 0x13DB)) (.node 0xBAEC83CC9B (.leaf 0x13A6) (.leaf 0x13A8))))
def nameTree_1424 : NameTree := .node 0xBAE4886B56 (.node 0xBADE886D56 (.node 0xBADE886956 (.node 0xBADA886E56 (.leaf 0x1B036) (.node 0xBADDCE28B8 (.leaf 0x1B037) (.leaf 0x1145D))) (.node 0xBADE886B56 (.node 0xBADE886A56 (.leaf 0x1B023) (.leaf 0x1B024)) (.node 0xBADE886C56 (.leaf 0x1B025) (.leaf 0x1B026)))) (.node 0xBADFF36666 (.node 0xBADE886F56 (.node 0xBADE886E56 (.leaf 0x1B027) (.leaf 0x1B028)) (.node 0xBADE887056 (.leaf 0x1B029) (.leaf 0x1B02A))) (.node 0xBAE4886956 (.node 0xBAE0198F20 (.leaf 0x11D17) (.leaf 0x1E948)) (.node 0xBAE4886A56 (.leaf 0x1B038) (.leaf 0x1B039))))) (nameTree_1423)
def nameTree_1425 : NameTree := .node 0xBAEC8AC89B (.node 0xBAEC89D09B (.node 0xBAEC89C89B (.node 0xBAEC88DD9B (.leaf 0x13B7) (.leaf 0x13B8)) (.node 0xBAEC89CC9B (.leaf 0x13B9) (.leaf 0x13BA))) (.node 0xBAEC89DC9B (.node 0xBAEC89D69B (.leaf 0x13BB) (.leaf 0x13BC)) (.node 0xBAEC89DD9B (.leaf 0x13BD) (.leaf 0x13F5)))) (.node 0xBAEC8ADC9B (.node 0xBAEC8AD09B (.node 0xBAEC8ACC9B (.leaf 0x13BE) (.leaf 0x13C1)) (.node 0xBAEC8AD69B (.leaf 0x13C2) (.leaf 0x13C3))) (.node 0xBAEC8FC89B (.node 0xBAEC8ADD9B (.leaf 0x13C4) (.leaf 0x13C5)) (.node 0xBAEC8FCC9B (.leaf 0x13CC) (.leaf 0x13CE))))
def nameTree_1426 : NameTree := .node 0xBAEC88DC9B (.node 0xBAEC84D69B (.node 0xBAEC83DD9B (.node 0xBAEC83D69B (.leaf 0x13A9) (.node 0xBAEC83DC9B (.leaf 0x13AA) (.leaf 0x13AB))) (.node 0xBAEC84CC9B (.node 0xBAEC84C89B (.leaf 0x13AC) (.leaf 0x13AD)) (.node 0xBAEC84D09B (.leaf 0x13AE) (.leaf 0x13AF)))) (.node 0xBAEC88C89B (.node 0xBAEC84DD9B (.node 0xBAEC84DC9B (.leaf 0x13B0) (.leaf 0x13B1)) (.node 0xBAEC87C89B (.leaf 0x13B2) (.leaf 0x13A7))) (.node 0xBAEC88D09B (.node 0xBAEC88CC9B (.leaf 0x13B3) (.leaf 0x13B4)) (.node 0xBAEC88D69B (.leaf 0x13B5) (.leaf 0x13B6))))) (nameTree_1425)
def nameTree_1427 : NameTree := .node 0xBAFFF6DD70 (.node 0xBAF2059A73 (.node 0xBAEC95DC9B (.node 0xBAEC95D69B (.leaf 0x13F1) (.leaf 0x13F2)) (.node 0xBAEC95DD9B (.leaf 0x13F3) (.leaf 0x13F4))) (.node 0xBAFD3A31B2 (.node 0xBAFBB202A9 (.leaf 0xFDB7) (.leaf 0x3D8)) (.node 0xBAFDB6D72F (.leaf 0x3244) (.leaf 0x1246C)))) (.node 0xBB15B5A10C (.node 0xBB13499476 (.node 0xBB1191EE66 (.leaf 0xFE8E) (.leaf 0x207E)) (.node 0xBB157FEE19 (.leaf 0x1F5D9) (.leaf 0x1A64))) (.node 0xBB1897DDF3 (.node 0xBB1808482B (.leaf 0x2A3F) (.leaf 0x112DF)) (.node 0xBB1A09CA65 (.leaf 0x8B4) (.leaf 0x1111D))))
def nameTree_1428 : NameTree := .node 0xBAEC95D09B (.node 0xBAEC93C89B (.node 0xBAEC8FDD9B (.node 0xBAEC8FD69B (.leaf 0x13CF) (.node 0xBAEC8FDC9B (.leaf 0x13D0) (.leaf 0x13D1))) (.node 0xBAEC90CC9B (.node 0xBAEC90C89B (.leaf 0x13D2) (.leaf 0x13D4)) (.node 0xBAEC90D09B (.leaf 0x13D6) (.leaf 0x13D8)))) (.node 0xBAEC93DC9B (.node 0xBAEC93D09B (.node 0xBAEC93CC9B (.leaf 0x13E9) (.leaf 0x13EA)) (.node 0xBAEC93D69B (.leaf 0x13EB) (.leaf 0x13EC))) (.node 0xBAEC95C89B (.node 0xBAEC93DD9B (.leaf 0x13ED) (.leaf 0x13EE)) (.node 0xBAEC95CC9B (.leaf 0x13EF) (.leaf 0x13F0))))) (nameTree_1427)
def nameTree_1429 : NameTree := .node 0xBB2B09CA65 (.node 0xBB2409CA65 (.node 0xBB1F09CA65 (.node 0xBB1C09CA65 (.leaf 0x1110C) (.node 0xBB1ED987BD (.leaf 0x11118) (.leaf 0x319E))) (.node 0xBB2209CA65 (.node 0xBB2009CA65 (.leaf 0x11109) (.leaf 0x11126)) (.node 0xBB2309CA65 (.leaf 0x1110E) (.leaf 0x11107)))) (.node 0xBB2609CA65 (.node 0xBB2509CA65 (.node 0xBB2450D018 (.leaf 0x11123) (.leaf 0x168D5)) (.node 0xBB2575C2BE (.leaf 0x1111F) (.leaf 0x1D040))) (.node 0xBB28103C82 (.node 0xBB2809CA65 (.leaf 0x1111A) (.leaf 0x1111B)) (.node 0xBB2A09CA65 (.leaf 0x2D6) (.leaf 0x11122))))) (.node 0xBB58A041D4 (.node 0xBB3109CA65 (.node 0xBB2C09CA65 (.leaf 0x11125) (.node 0xBB2F09CA65 (.leaf 0x11116) (.leaf 0x11124))) (.node 0xBB493EBE71 (.node 0xBB47B0A8DD (.leaf 0x11121) (.leaf 0xFD1E)) (.node 0xBB4E9DEF29 (.leaf 0x1D1E2) (.leaf 0x832)))) (.node 0xBB5A411335 (.node 0xBB5A40FF35 (.node 0xBB59CB4153 (.leaf 0x1F58F) (.leaf 0x2460)) (.node 0xBB5A410735 (.leaf 0x11435) (.leaf 0x1143F))) (.node 0xBB5A551335 (.node 0xBB5A490735 (.leaf 0x11441) (.leaf 0x11437)) (.node 0xBB5DC65453 (.leaf 0x11439) (.leaf 0x2465)))))
def nameTree_1430 : NameTree := .node 0xBB8457F7B6 (.node 0xBB7F11A7FD (.node 0xBB7E1CB8FD (.node 0xBB7E1C61FD (.leaf 0x16A13) (.leaf 0x1695C)) (.node 0xBB7E2158FD (.leaf 0x169F4) (.leaf 0x16837))) (.node 0xBB8455F7B6 (.node 0xBB7F1F4CFD (.leaf 0x16859) (.leaf 0x16823)) (.node 0xBB8456F7B6 (.leaf 0xAA9B) (.leaf 0xAA8B)))) (.node 0xBB845EF7B6 (.node 0xBB845AF7B6 (.node 0xBB8459F7B6 (.leaf 0xAA93) (.leaf 0xAAA1)) (.node 0xBB845BF7B6 (.leaf 0xAA87) (.leaf 0xAAAD))) (.node 0xBB8460F7B6 (.node 0xBB845FF7B6 (.leaf 0xAA81) (.leaf 0xAAA9)) (.node 0xBB8461F7B6 (.leaf 0xAAA3) (.leaf 0xAA99))))
def nameTree_1431 : NameTree := .node 0xBB7E1707FD (.node 0xBB66901DB5 (.node 0xBB60A2B138 (.node 0xBB604698EB (.leaf 0x2461) (.node 0xBB60469DEB (.leaf 0x2071) (.leaf 0x207F))) (.node 0xBB60A2BB38 (.node 0xBB60A2B538 (.leaf 0xAC7) (.leaf 0xABF)) (.node 0xBB60A2C138 (.leaf 0xACB) (.leaf 0xAC1)))) (.node 0xBB7E1255FD (.node 0xBB7B2211FD (.node 0xBB6C9432A0 (.leaf 0xA75D) (.leaf 0x1F8E)) (.node 0xBB7B2316FD (.leaf 0x168AA) (.leaf 0x16A15))) (.node 0xBB7E1659FD (.node 0xBB7E160AFD (.leaf 0x168FD) (.leaf 0x168E8)) (.node 0xBB7E16B8FD (.leaf 0x16954) (.leaf 0x169DE))))) (nameTree_1430)
def nameTree_1432 : NameTree := .node 0xBBD5AD4495 (.node 0xBBC2AF0D6A (.node 0xBBC2A5196A (.node 0xBBC2A4196A (.leaf 0x1BC76) (.leaf 0x1D741)) (.node 0xBBC2A70D6A (.leaf 0x1D742) (.leaf 0x1D745))) (.node 0xBBD071FE91 (.node 0xBBCDACAE24 (.leaf 0x1D743) (.leaf 0x46D)) (.node 0xBBD2C1378A (.leaf 0xFB56) (.leaf 0x2B41)))) (.node 0xBBF0BEA696 (.node 0xBBE76C1CE0 (.node 0xBBDFA13586 (.leaf 0x1D0DC) (.leaf 0xFC84)) (.node 0xBBF0BCA696 (.leaf 0x10A0D) (.leaf 0x174A))) (.node 0xBBF0C2A696 (.node 0xBBF0C1A696 (.leaf 0x1747) (.leaf 0x1744)) (.node 0xBBF0C5A696 (.leaf 0x1751) (.leaf 0x1743))))
def nameTree_1433 : NameTree := .node 0xBBC278CF90 (.node 0xBB8B0E55FD (.node 0xBB8467F7B6 (.node 0xBB8465F7B6 (.leaf 0xAA9D) (.node 0xBB8466F7B6 (.leaf 0xAAA7) (.leaf 0xAA8F))) (.node 0xBB846CF7B6 (.node 0xBB8469F7B6 (.leaf 0xAA95) (.leaf 0xAAAB)) (.node 0xBB867F87AB (.leaf 0xAAA5) (.leaf 0x1DA05)))) (.node 0xBB9FFED825 (.node 0xBB8F43B650 (.node 0xBB8F3DB050 (.leaf 0x16939) (.leaf 0x1059)) (.node 0xBB908526F5 (.leaf 0x1057) (.leaf 0x9CD))) (.node 0xBBB889CD5B (.node 0xBBB319CD5B (.leaf 0x1D193) (.leaf 0x1D6E6)) (.node 0xBBB8D8A69A (.leaf 0x1D6F6) (.leaf 0x1BA1))))) (nameTree_1432)
def nameTree_1434 : NameTree := .node 0xBC25A3D1DF (.node 0xBC1582535C (.node 0xBC139B42A7 (.node 0xBC136C7424 (.leaf 0x40E) (.leaf 0x1F0B1)) (.node 0xBC13F56E92 (.leaf 0x2A93) (.leaf 0x1F57))) (.node 0xBC1BD58DFF (.node 0xBC1854971D (.leaf 0x1A72) (.leaf 0x3001)) (.node 0xBC24D0252B (.leaf 0x111F1) (.leaf 0xC80)))) (.node 0xBC25B1D1DF (.node 0xBC25AAC8DF (.node 0xBC25A7D1DF (.leaf 0x2D00) (.leaf 0x2D04)) (.node 0xBC25ABD1DF (.leaf 0x2D21) (.leaf 0x2D08))) (.node 0xBC25B9C8DF (.node 0xBC25B7D1DF (.leaf 0x2D0D) (.leaf 0x2D13)) (.node 0xBC25BBD1DF (.leaf 0x2D23) (.leaf 0x2D27))))
def nameTree_1435 : NameTree := .node 0xBC0EA3B5EE (.node 0xBBF0D1A696 (.node 0xBBF0CAA696 (.node 0xBBF0C7A696 (.leaf 0x174E) (.node 0xBBF0C8A696 (.leaf 0x174B) (.leaf 0x1748))) (.node 0xBBF0CDA696 (.node 0xBBF0CCA696 (.leaf 0x1749) (.leaf 0x174D)) (.node 0xBBF0CEA696 (.leaf 0x1750) (.leaf 0x1746)))) (.node 0xBC0250FCFE (.node 0xBBF357E37B (.node 0xBBF0D3A696 (.leaf 0x174F) (.leaf 0x174C)) (.node 0xBBFEF33D01 (.leaf 0x2129) (.leaf 0x1D764))) (.node 0xBC056134E1 (.node 0xBC04C56257 (.leaf 0x2A6D) (.leaf 0x22F6)) (.node 0xBC0EA3A9EE (.leaf 0x1F0A1) (.leaf 0x419))))) (nameTree_1434)
def nameTree_1436 : NameTree := .node 0xBC571442D1 (.node 0xBC3D7C05C2 (.node 0xBC38E73A48 (.node 0xBC310826B6 (.leaf 0x27EE) (.node 0xBC33E39B6C (.leaf 0x2CC3) (.leaf 0x234F))) (.node 0xBC3B5A401A (.node 0xBC39C5B7D0 (.leaf 0x1F61B) (.leaf 0x488)) (.node 0xBC3D251608 (.leaf 0x1D9F7) (.leaf 0x11D50)))) (.node 0xBC50287113 (.node 0xBC4939EC83 (.node 0xBC474FC4E3 (.leaf 0x2E2E) (.leaf 0x10A51)) (.node 0xBC4CEACFE0 (.leaf 0xA7FE) (.leaf 0xF27))) (.node 0xBC5224938E (.node 0xBC5193D0A5 (.leaf 0x1F702) (.leaf 0x1D9CB)) (.node 0xBC56108A37 (.leaf 0x292E) (.leaf 0x254C))))) (.node 0xBC65D8C5FE (.node 0xBC5DDF6D19 (.node 0xBC57C2E956 (.leaf 0x109F3) (.node 0xBC5861DA97 (.leaf 0x32AE) (.leaf 0x21B9))) (.node 0xBC5F543057 (.node 0xBC5DEEEFEA (.leaf 0x1D80D) (.leaf 0x12106)) (.node 0xBC62FAF49F (.leaf 0x16870) (.leaf 0x1201A)))) (.node 0xBC770EB8FD (.node 0xBC6FFD5701 (.node 0xBC679320A5 (.leaf 0x2B35) (.leaf 0xFBBA)) (.node 0xBC770DAFFD (.leaf 0x1D941) (.leaf 0x16878))) (.node 0xBC7B225EFD (.node 0xBC78A6C22A (.leaf 0x169A1) (.leaf 0xA6F1)) (.node 0xBC7B2264FD (.leaf 0x16941) (.leaf 0x16900)))))
def nameTree_1437 : NameTree := .node 0xBCD6886C56 (.node 0xBCD159B558 (.node 0xBCC8257293 (.node 0xBCBE9325DB (.leaf 0x1D8C5) (.leaf 0x1F87A)) (.node 0xBCCC4042B3 (.leaf 0x1B10) (.leaf 0x2D0F))) (.node 0xBCD6886A56 (.node 0xBCD6886956 (.leaf 0x12470) (.leaf 0x1B0C2)) (.node 0xBCD6886B56 (.leaf 0x1B0C3) (.leaf 0x1B0C4)))) (.node 0xBCD80FD3E3 (.node 0xBCD6886E56 (.node 0xBCD6886D56 (.leaf 0x1B0C5) (.leaf 0x1B0C6)) (.node 0xBCD6886F56 (.leaf 0x1B0C7) (.leaf 0x1B0C8))) (.node 0xBCDA886956 (.node 0xBCD92D6E07 (.leaf 0x1DA16) (.leaf 0x1D9D0)) (.node 0xBCDA886A56 (.leaf 0x1B0D4) (.leaf 0x1B0D5))))
def nameTree_1438 : NameTree := .node 0xBCBDBBFB96 (.node 0xBC9C609999 (.node 0xBC8A50ABA9 (.node 0xBC8609033E (.leaf 0x16967) (.node 0xBC863C9588 (.leaf 0x20DE) (.leaf 0x1141D))) (.node 0xBC8B1C64FD (.node 0xBC8B0EACFD (.leaf 0x16882) (.leaf 0x16996)) (.node 0xBC99389CF0 (.leaf 0x1693D) (.leaf 0x1F12)))) (.node 0xBCAF79B579 (.node 0xBCA727DA2B (.node 0xBCA1AAB38C (.leaf 0x11063) (.leaf 0x1F67D)) (.node 0xBCAE1CE22B (.leaf 0x2C95) (.leaf 0x3E7))) (.node 0xBCB5461D74 (.node 0xBCAFC37E82 (.leaf 0x23E8) (.leaf 0x10094)) (.node 0xBCB997B5C8 (.leaf 0x2A9E) (.leaf 0x1F784))))) (nameTree_1437)
def nameTree_1439 : NameTree := .node 0xBCF868355B (.node 0xBCEB94FDCE (.node 0xBCEA886C56 (.node 0xBCEA886B56 (.leaf 0x1B0D1) (.leaf 0x1B0D2)) (.node 0xBCEA9E5142 (.leaf 0x1B0D3) (.leaf 0x2CC2))) (.node 0xBCF17E4457 (.node 0xBCECDD924F (.leaf 0xFCCB) (.leaf 0x10E78)) (.node 0xBCF78AD108 (.leaf 0x355) (.leaf 0xA719)))) (.node 0xBD1E57A692 (.node 0xBD0C4AA08D (.node 0xBCF90FCC23 (.leaf 0xFC01) (.leaf 0x1D9DF)) (.node 0xBD1DFB28B1 (.leaf 0x3000) (.leaf 0x2E3E))) (.node 0xBD280FD862 (.node 0xBD230D7006 (.leaf 0x1F025) (.leaf 0x3E0)) (.node 0xBD2B5F1A3A (.leaf 0xF13) (.leaf 0x4B1))))
def nameTree_1440 : NameTree := .node 0xBCEA886A56 (.node 0xBCDE886F56 (.node 0xBCDE886B56 (.node 0xBCDE886956 (.leaf 0x2551) (.node 0xBCDE886A56 (.leaf 0x1B0C9) (.leaf 0x1B0CA))) (.node 0xBCDE886D56 (.node 0xBCDE886C56 (.leaf 0x1B0CB) (.leaf 0x1B0CC)) (.node 0xBCDE886E56 (.leaf 0x1B0CD) (.leaf 0x1B0CE)))) (.node 0xBCE4886C56 (.node 0xBCE4886A56 (.node 0xBCE4886956 (.leaf 0x1B0CF) (.leaf 0x1B0D7)) (.node 0xBCE4886B56 (.leaf 0x1B0D8) (.leaf 0x1B0D9))) (.node 0xBCE4886E56 (.node 0xBCE4886D56 (.leaf 0x1B0DA) (.leaf 0x1B0DB)) (.node 0xBCEA886956 (.leaf 0x1B0DC) (.leaf 0x1B0D0))))) (nameTree_1439)
def nameTree_1441 : NameTree := .node 0xBD65FF482C (.node 0xBD56227013 (.node 0xBD48F7802D (.node 0xBD471A51DC (.leaf 0x1B5A) (.leaf 0x2392)) (.node 0xBD52AB9051 (.leaf 0x1F49E) (.leaf 0x1F86D))) (.node 0xBD5DFD293E (.node 0xBD5C04F59F (.leaf 0x1F71A) (.leaf 0x1201B)) (.node 0xBD5E31FE84 (.leaf 0x169A4) (.leaf 0xFE56)))) (.node 0xBD6E7A35CC (.node 0xBD6D45C6EC (.node 0xBD67C016EA (.leaf 0x206C) (.leaf 0x12245)) (.node 0xBD6D7AB1BA (.leaf 0x16986) (.leaf 0xFB89))) (.node 0xBD722B2099 (.node 0xBD722B1C99 (.leaf 0x11A42) (.leaf 0x11D3A)) (.node 0xBD722B2699 (.leaf 0x11D32) (.leaf 0x11D3D))))
def nameTree_1442 : NameTree := .node 0xBD3B584110 (.node 0xBD37F10886 (.node 0xBD37F10486 (.node 0xBD31FA4901 (.leaf 0x10323) (.node 0xBD37F10386 (.leaf 0x2218) (.leaf 0x1F063))) (.node 0xBD37F10686 (.node 0xBD37F10586 (.leaf 0x1F064) (.leaf 0x1F065)) (.node 0xBD37F10786 (.leaf 0x1F066) (.leaf 0x1F067)))) (.node 0xBD39942FCD (.node 0xBD3906B9ED (.node 0xBD37F10986 (.leaf 0x1F068) (.leaf 0x1F069)) (.node 0xBD39942BCD (.leaf 0x1734) (.leaf 0x11720))) (.node 0xBD399439CD (.node 0xBD399433CD (.leaf 0x11726) (.leaf 0x11722)) (.node 0xBD39943FCD (.leaf 0x11728) (.leaf 0x11724))))) (nameTree_1441)
def nameTree_1443 : NameTree := .node 0xBDC7934BB8 (.node 0xBDC7904BB8 (.node 0xBDC78D4FB8 (.node 0xBDC78D4BB8 (.leaf 0x109A8) (.leaf 0x109A9)) (.node 0xBDC78F4BB8 (.leaf 0x109AA) (.leaf 0x109A7))) (.node 0xBDC7924BB8 (.node 0xBDC7914BB8 (.leaf 0x109B3) (.leaf 0x109AB)) (.node 0xBDC7924FB8 (.leaf 0x109AF) (.leaf 0x109B1)))) (.node 0xBDC7984BB8 (.node 0xBDC79359B8 (.node 0xBDC7934FB8 (.leaf 0x109B4) (.leaf 0x109B5)) (.node 0xBDC7964BB8 (.leaf 0x109B6) (.leaf 0x109A5))) (.node 0xBDD398912D (.node 0xBDCABBA468 (.leaf 0x109A4) (.leaf 0x16DF)) (.node 0xBDD64E616C (.leaf 0x120F3) (.leaf 0xA97A))))
def nameTree_1444 : NameTree := .node 0xBDC78C4BB8 (.node 0xBDB8C6CDE4 (.node 0xBD94EF7D56 (.node 0xBD81BDC750 (.leaf 0x11D34) (.node 0xBD93B4F5B5 (.leaf 0x1D87B) (.leaf 0x1F833))) (.node 0xBDA8DA0797 (.node 0xBDA733392E (.leaf 0x1230F) (.leaf 0x32A3)) (.node 0xBDB3927671 (.leaf 0x2BA9) (.leaf 0x119F)))) (.node 0xBDC7814BB8 (.node 0xBDBB7176F6 (.node 0xBDBA1E6178 (.leaf 0x10340) (.leaf 0x764)) (.node 0xBDC502553C (.leaf 0xFEFA) (.leaf 0x2A9B))) (.node 0xBDC78A4BB8 (.node 0xBDC7834BB8 (.leaf 0x109A6) (.leaf 0x109B7)) (.node 0xBDC78B4BB8 (.leaf 0x109B2) (.leaf 0x109AC))))) (nameTree_1443)
def nameTree_1445 : NameTree := .node 0xBDDC966B0C (.node 0xBDDACB0ADF (.node 0xBDDA886E56 (.node 0xBDDA886D56 (.leaf 0x1B095) (.leaf 0x1B096)) (.node 0xBDDACA03DF (.leaf 0x1B097) (.leaf 0xA662))) (.node 0xBDDC93770C (.node 0xBDDACB0BDF (.leaf 0xA664) (.leaf 0xA666)) (.node 0xBDDC94770C (.leaf 0x3BC) (.leaf 0x3BD)))) (.node 0xBDDE886B56 (.node 0xBDDE886956 (.node 0xBDDC9E6B0C (.leaf 0x3C0) (.leaf 0x3BE)) (.node 0xBDDE886A56 (.leaf 0x1B087) (.leaf 0x1B088))) (.node 0xBDDE886D56 (.node 0xBDDE886C56 (.leaf 0x1B089) (.leaf 0x1B08A)) (.node 0xBDDE886E56 (.leaf 0x1B08B) (.leaf 0x1B08C))))
def nameTree_1446 : NameTree := .node 0xBDDA886C56 (.node 0xBDD6886F56 (.node 0xBDD6886B56 (.node 0xBDD6886956 (.leaf 0x1156) (.node 0xBDD6886A56 (.leaf 0x1B07E) (.leaf 0x1B07F))) (.node 0xBDD6886D56 (.node 0xBDD6886C56 (.leaf 0x1B080) (.leaf 0x1B081)) (.node 0xBDD6886E56 (.leaf 0x1B082) (.leaf 0x1B083)))) (.node 0xBDD9E5693B (.node 0xBDD6887156 (.node 0xBDD6887056 (.leaf 0x1B084) (.leaf 0x1B085)) (.node 0xBDD6C12998 (.leaf 0x1B086) (.leaf 0x2B47))) (.node 0xBDDA886A56 (.node 0xBDDA886956 (.leaf 0x1F7CE) (.leaf 0x1B092)) (.node 0xBDDA886B56 (.leaf 0x1B093) (.leaf 0x1B094))))) (nameTree_1445)
def nameTree_1447 : NameTree := .node 0xBE1125B8F6 (.node 0xBDFB93A6C2 (.node 0xBDFB93A3C2 (.node 0xBDFB939FC2 (.leaf 0xAB72) (.leaf 0xAB73)) (.node 0xBDFB93A5C2 (.leaf 0xAB9D) (.leaf 0xAB74))) (.node 0xBE025999EC (.node 0xBDFBDE1302 (.leaf 0xAB75) (.leaf 0x11AE8)) (.node 0xBE0FC6CDE4 (.leaf 0x2E09) (.leaf 0x10335)))) (.node 0xBE225B7553 (.node 0xBE1C6370D8 (.node 0xBE154F141E (.leaf 0x1D789) (.leaf 0x1F4B6)) (.node 0xBE1F2CE1F6 (.leaf 0x9F1) (.leaf 0x26D8))) (.node 0xBE25DAA6A8 (.node 0xBE22DE4CF4 (.leaf 0x102F4) (.leaf 0xFD0A)) (.node 0xBE2D1C111D (.leaf 0x111EC) (.leaf 0x1D800))))
def nameTree_1448 : NameTree := .node 0xBDFB9399C2 (.node 0xBDE4886C56 (.node 0xBDE379AA69 (.node 0xBDDF3C804F (.leaf 0x1B08D) (.node 0xBDE210057A (.leaf 0xFECB) (.leaf 0x1D242))) (.node 0xBDE4886A56 (.node 0xBDE4886956 (.leaf 0xFB98) (.leaf 0x1B099)) (.node 0xBDE4886B56 (.leaf 0x1B09A) (.leaf 0x1B09B)))) (.node 0xBDEA886B56 (.node 0xBDEA886956 (.node 0xBDE4886D56 (.leaf 0x1B09C) (.leaf 0x1B09D)) (.node 0xBDEA886A56 (.leaf 0x1B08F) (.leaf 0x1B090))) (.node 0xBDFB9391C2 (.node 0xBDEE2A418A (.leaf 0x1B091) (.leaf 0x1F65D)) (.node 0xBDFB9395C2 (.leaf 0xAB70) (.leaf 0xAB71))))) (nameTree_1447)
def nameTree_1449 : NameTree := .node 0xBE7AA32E95 (.node 0xBE675219AD (.node 0xBE613EA022 (.node 0xBE60027B7D (.leaf 0x1D66) (.leaf 0x109CF)) (.node 0xBE6556B73A (.leaf 0x4AE) (.leaf 0x29F2))) (.node 0xBE71C33DEC (.node 0xBE7085C390 (.leaf 0x2A70) (.leaf 0x75A)) (.node 0xBE77C24AEC (.leaf 0x32BA) (.leaf 0x32B9)))) (.node 0xBE82BA81DB (.node 0xBE7B2211FD (.node 0xBE7B21AFFD (.leaf 0x1D353) (.leaf 0x16873)) (.node 0xBE7C52CEDE (.leaf 0x168B1) (.leaf 0x1686B))) (.node 0xBE85CBE81B (.node 0xBE85CBE41B (.leaf 0x16B33) (.leaf 0xA949)) (.node 0xBE85CBEE1B (.leaf 0xA947) (.leaf 0xA94B))))
def nameTree_1450 : NameTree := .node 0xBE5AC807D1 (.node 0xBE44944595 (.node 0xBE37F10686 (.node 0xBE37F10486 (.leaf 0x1F06A) (.node 0xBE37F10586 (.leaf 0x1F06B) (.leaf 0x1F06C))) (.node 0xBE37F10886 (.node 0xBE37F10786 (.leaf 0x1F06D) (.leaf 0x1F06E)) (.node 0xBE37F10986 (.leaf 0x1F06F) (.leaf 0x1F070)))) (.node 0xBE4F8BFACB (.node 0xBE4A36569B (.node 0xBE470B4CC6 (.leaf 0xA7A6) (.leaf 0x1D25)) (.node 0xBE4CC26D67 (.leaf 0x1134) (.leaf 0x204C))) (.node 0xBE562B7E13 (.node 0xBE5286DEB7 (.leaf 0x1F100) (.leaf 0x11001)) (.node 0xBE563501C1 (.leaf 0x1F76E) (.leaf 0x27E3))))) (nameTree_1449)
def nameTree_1451 : NameTree := .node 0xBAC4C28F19 (.node 0xB7E959494F (.node 0xB708C1F834 (.node 0xB68A2265FD (.node 0xB67A1C5EFD (nameTree_1394) (nameTree_1396)) (.node 0xB69EE772B7 (nameTree_1398) (nameTree_1400))) (.node 0xB7B5560AE0 (.node 0xB78CAFDACD (nameTree_1401) (nameTree_1403)) (.node 0xB7D6887056 (nameTree_1405) (nameTree_1407)))) (.node 0xB963D002AE (.node 0xB8AD9AAA47 (.node 0xB861E84BC0 (nameTree_1408) (nameTree_1410)) (.node 0xB915BB1395 (nameTree_1412) (nameTree_1414))) (.node 0xBA368886A1 (.node 0xB9CD27DED8 (nameTree_1415) (nameTree_1417)) (.node 0xBA8C64986B (nameTree_1419) (nameTree_1421))))) (.node 0xBC30D6A3A2 (.node 0xBB1B09CA65 (.node 0xBAEC83D09B (.node 0xBADA886D56 (nameTree_1422) (nameTree_1424)) (.node 0xBAEC8FD09B (nameTree_1426) (nameTree_1428))) (.node 0xBB8463F7B6 (.node 0xBB5ED44B53 (nameTree_1429) (nameTree_1431)) (.node 0xBBF0C6A696 (nameTree_1433) (nameTree_1435)))) (.node 0xBD722B2C99 (.node 0xBCDBB33EA0 (.node 0xBC851CB5FD (nameTree_1436) (nameTree_1438)) (.node 0xBD2C301073 (nameTree_1440) (nameTree_1442))) (.node 0xBDDE886F56 (.node 0xBDD64E6C24 (nameTree_1444) (nameTree_1446)) (.node 0xBE37F10386 (nameTree_1448) (nameTree_1450)))))
def nameTree_1452 : NameTree := .node 0xBEF0157EFA (.node 0xBEB60E18C7 (.node 0xBE92646D10 (.node 0xBE8A9E2FF7 (.leaf 0xA948) (.node 0xBE8B130FFD (.leaf 0x1F717) (.leaf 0x16A38))) (.node 0xBEAF5305E2 (.node 0xBE9E53C021 (.leaf 0x1D9EF) (.leaf 0x277E)) (.node 0xBEB3FC4411 (.leaf 0x449) (.leaf 0x109E3)))) (.node 0xBED3052433 (.node 0xBECDFC1A33 (.node 0xBEC9BCC680 (.leaf 0x8A0) (.leaf 0x757)) (.node 0xBED1F72D33 (.leaf 0x111E1) (.leaf 0x111E6))) (.node 0xBEEABF43F7 (.node 0xBEE0EDE0ED (.leaf 0x111E2) (.leaf 0xFB2F)) (.node 0xBEEB5B42DC (.leaf 0x733) (.leaf 0x29D1))))) (.node 0xBF097F7954 (.node 0xBEF61F4E65 (.node 0xBEF61F4465 (.leaf 0x11A33) (.node 0xBEF61F4A65 (.leaf 0xA952) (.leaf 0xA950))) (.node 0xBF02BAEB34 (.node 0xBF01A33533 (.leaf 0xA951) (.leaf 0x1086D)) (.node 0xBF038D4511 (.leaf 0x1D7E1) (.leaf 0xFE26)))) (.node 0xBF19B51B12 (.node 0xBF0E4BBE51 (.node 0xBF0C99AA69 (.leaf 0x10AE3) (.leaf 0xFB66)) (.node 0xBF17ECB82D (.leaf 0x2F8F) (.leaf 0x2794))) (.node 0xBF2EAE1983 (.node 0xBF2CB12291 (.leaf 0x1BC77) (.leaf 0x6D6)) (.node 0xBF37F10386 (.leaf 0x1DE) (.leaf 0x1F071)))))
def nameTree_1453 : NameTree := .node 0xBF85EC391B (.node 0xBF7B22BFFD (.node 0xBF648C32FC (.node 0xBF6265A3DA (.leaf 0x12169) (.leaf 0x10489)) (.node 0xBF66D64B12 (.leaf 0xFBBB) (.leaf 0x59D))) (.node 0xBF832E1EC2 (.node 0xBF7FE4A5F8 (.leaf 0x1699E) (.leaf 0x1D1D9)) (.node 0xBF83EE251B (.leaf 0x10A56) (.leaf 0x3364)))) (.node 0xBF95B9DA78 (.node 0xBF8DD8115E (.node 0xBF89077720 (.leaf 0x336C) (.leaf 0x1B6C)) (.node 0xBF8F6CAC28 (.leaf 0x3363) (.leaf 0x286))) (.node 0xBF9FB4E3AA (.node 0xBF9F7905CA (.leaf 0x11A3F) (.leaf 0x1F6C8)) (.node 0xBFA4B42776 (.leaf 0xFFE2) (.leaf 0x1D1B5))))
def nameTree_1454 : NameTree := .node 0xBF5F55877F (.node 0xBF43AE5BEC (.node 0xBF37F10786 (.node 0xBF37F10586 (.leaf 0x1F072) (.node 0xBF37F10686 (.leaf 0x1F073) (.leaf 0x1F074))) (.node 0xBF37F10986 (.node 0xBF37F10886 (.leaf 0x1F075) (.leaf 0x1F076)) (.node 0xBF3CD8C8BB (.leaf 0x1F077) (.leaf 0x1D0E0)))) (.node 0xBF49C91C12 (.node 0xBF48BC17EF (.node 0xBF473A9D98 (.leaf 0x1F65A) (.leaf 0x1DA5F)) (.node 0xBF48EAC737 (.leaf 0x2BB9) (.leaf 0xF23))) (.node 0xBF577C2491 (.node 0xBF49EA1645 (.leaf 0x2760) (.leaf 0x1F007)) (.node 0xBF5B1FF7D9 (.leaf 0x1D0C8) (.leaf 0x1FDB))))) (nameTree_1453)
def nameTree_1455 : NameTree := .node 0xBFE9F9E2BE (.node 0xBFE9F9DEBE (.node 0xBFE3F29B90 (.node 0xBFE2828B69 (.leaf 0x16841) (.leaf 0x299B)) (.node 0xBFE9F9DDBE (.leaf 0x2A7A) (.leaf 0x1D656))) (.node 0xBFE9F9E0BE (.node 0xBFE9F9DFBE (.leaf 0x1D657) (.leaf 0x1D658)) (.node 0xBFE9F9E1BE (.leaf 0x1D659) (.leaf 0x1D65A)))) (.node 0xBFE9F9E6BE (.node 0xBFE9F9E4BE (.node 0xBFE9F9E3BE (.leaf 0x1D65B) (.leaf 0x1D65C)) (.node 0xBFE9F9E5BE (.leaf 0x1D65D) (.leaf 0x1D65E))) (.node 0xBFE9F9E8BE (.node 0xBFE9F9E7BE (.leaf 0x1D65F) (.leaf 0x1D660)) (.node 0xBFE9F9E9BE (.leaf 0x1D661) (.leaf 0x1D662))))
def nameTree_1456 : NameTree := .node 0xBFDDBA7861 (.node 0xBFC2102857 (.node 0xBFAC3D001F (.node 0xBFA8E0CF29 (.leaf 0x112F1) (.node 0xBFA9EEC629 (.leaf 0x112F6) (.leaf 0x112F2))) (.node 0xBFB4A37611 (.node 0xBFAF4E9B73 (.leaf 0x2258) (.leaf 0xB3D)) (.node 0xBFB7A32880 (.leaf 0x9BC) (.leaf 0x1F78D)))) (.node 0xBFC9E07E28 (.node 0xBFC727DA6D (.node 0xBFC4567E58 (.leaf 0x2499) (.leaf 0x1F00A)) (.node 0xBFC985A5E7 (.leaf 0x111ED) (.leaf 0x213))) (.node 0xBFD690B01B (.node 0xBFD1624D37 (.leaf 0xAAC2) (.leaf 0x10918)) (.node 0xBFDAF0F9D3 (.leaf 0x1F56C) (.leaf 0x1690))))) (nameTree_1455)
def nameTree_1457 : NameTree := .node 0xC025888947 (.node 0xC01C4787AC (.node 0xC017BF750C (.node 0xBFFDC59C19 (.leaf 0x1F6B5) (.leaf 0x1E4)) (.node 0xC01B6D8B10 (.leaf 0x25CC) (.leaf 0x22F4))) (.node 0xC01FBDEA12 (.node 0xC01C4891C5 (.leaf 0xA793) (.leaf 0x19A)) (.node 0xC021712ABC (.leaf 0x3D9) (.leaf 0x1D04B)))) (.node 0xC02F677B02 (.node 0xC02CCB0503 (.node 0xC027BEF166 (.leaf 0x21DB) (.leaf 0xA9CD)) (.node 0xC02E72C0FB (.leaf 0x115CA) (.leaf 0x2AC0))) (.node 0xC037F10486 (.node 0xC037F10386 (.leaf 0x121BF) (.leaf 0x1F078)) (.node 0xC037F10586 (.leaf 0x1F079) (.leaf 0x1F07A))))
def nameTree_1458 : NameTree := .node 0xBFF5A638BD (.node 0xBFE9F9F1BE (.node 0xBFE9F9EDBE (.node 0xBFE9F9EBBE (.leaf 0x1D663) (.node 0xBFE9F9ECBE (.leaf 0x1D664) (.leaf 0x1D665))) (.node 0xBFE9F9EFBE (.node 0xBFE9F9EEBE (.leaf 0x1D666) (.leaf 0x1D667)) (.node 0xBFE9F9F0BE (.leaf 0x1D668) (.leaf 0x1D669)))) (.node 0xBFE9F9F5BE (.node 0xBFE9F9F3BE (.node 0xBFE9F9F2BE (.leaf 0x1D66A) (.leaf 0x1D66B)) (.node 0xBFE9F9F4BE (.leaf 0x1D66C) (.leaf 0x1D66D))) (.node 0xBFEF131359 (.node 0xBFE9F9F6BE (.leaf 0x1D66E) (.leaf 0x1D66F)) (.node 0xBFF00823A7 (.leaf 0x1F3EC) (.leaf 0xFE71))))) (nameTree_1457)
def nameTree_1459 : NameTree := .node 0xC066A44510 (.node 0xC05E63AC28 (.node 0xC037F10986 (.node 0xC037F10786 (.leaf 0x1F07B) (.node 0xC037F10886 (.leaf 0x1F07C) (.leaf 0x1F07D))) (.node 0xC03DEDD11E (.node 0xC03D93544B (.leaf 0x1F07E) (.leaf 0x119)) (.node 0xC0488B1A46 (.leaf 0xF28) (.leaf 0x1EB1)))) (.node 0xC0669440FC (.node 0xC066943F49 (.node 0xC05F705AE5 (.leaf 0x293) (.leaf 0x1880)) (.node 0xC066943FA0 (.leaf 0x78A) (.leaf 0x78E))) (.node 0xC0669B4153 (.node 0xC066944306 (.leaf 0x786) (.leaf 0x7A4)) (.node 0xC066A444B9 (.leaf 0x78D) (.leaf 0x788))))) (.node 0xC08E8AA791 (.node 0xC07654D7AC (.node 0xC069EC4BC0 (.leaf 0x7A5) (.node 0xC06AEB3B4E (.leaf 0xC34) (.leaf 0x19E9))) (.node 0xC07AC6C050 (.node 0xC07A67E919 (.leaf 0x3191) (.leaf 0x116B6)) (.node 0xC087F5522A (.leaf 0x1D8A7) (.leaf 0x20E3)))) (.node 0xC0980C25EB (.node 0xC093AB21B7 (.node 0xC092D75047 (.leaf 0x1F8C) (.leaf 0x1D116)) (.node 0xC095929C9D (.leaf 0x1D85) (.leaf 0xFBA0))) (.node 0xC0A936FC62 (.node 0xC099BF9BE4 (.leaf 0xFDC7) (.leaf 0x111CA)) (.node 0xC0AB54CB06 (.leaf 0x1133) (.leaf 0x1D003)))))
def nameTree_1460 : NameTree := .node 0xC115FF051A (.node 0xC1152710B2 (.node 0xC112B8FCBD (.node 0xC10530161E (.leaf 0x1D021) (.leaf 0x797)) (.node 0xC112E32DE8 (.leaf 0xFD34) (.leaf 0x1D14A))) (.node 0xC115F7051A (.node 0xC115F6FD1A (.leaf 0x1D083) (.leaf 0x9BE)) (.node 0xC115F7111A (.leaf 0x9C8) (.leaf 0x9CC)))) (.node 0xC126882F2D (.node 0xC11D8D696E (.node 0xC1160B111A (.leaf 0x9C0) (.leaf 0x9C2)) (.node 0xC1208B6DE9 (.leaf 0x1F016) (.leaf 0x10AF0))) (.node 0xC13670C2BE (.node 0xC130DDD1BD (.leaf 0x2912) (.leaf 0xFCE7)) (.node 0xC137F10386 (.leaf 0x1D030) (.leaf 0x1F07F))))
def nameTree_1461 : NameTree := .node 0xC100781161 (.node 0xC0C2F1BF48 (.node 0xC0BF54E4F3 (.node 0xC0BB6FB9E5 (.leaf 0xA649) (.node 0xC0BBF2147F (.leaf 0x1CD6) (.leaf 0x2BC2))) (.node 0xC0C2F1B748 (.node 0xC0BF90C3C9 (.leaf 0x672) (.leaf 0xFBA4)) (.node 0xC0C2F1BB48 (.leaf 0x10408) (.leaf 0x10407)))) (.node 0xC0D074F7FD (.node 0xC0C5BF8902 (.node 0xC0C2F1C548 (.leaf 0x10406) (.leaf 0x1040A)) (.node 0xC0CDFF9E07 (.leaf 0x1EDB) (.leaf 0x1FB3))) (.node 0xC0E2F8C7B8 (.node 0xC0D07653FD (.leaf 0x1BC7A) (.leaf 0x1BC7B)) (.node 0xC0F3E693A4 (.leaf 0x1F5F6) (.leaf 0x1F696))))) (nameTree_1460)
def nameTree_1462 : NameTree := .node 0xC15FED1E15 (.node 0xC15078AD29 (.node 0xC14B8486CF (.node 0xC14B8172CF (.leaf 0x1A52) (.leaf 0x1A41)) (.node 0xC14B8672CF (.leaf 0x1A50) (.leaf 0x1A45))) (.node 0xC15B99F188 (.node 0xC15616A39A (.leaf 0x1D9DA) (.leaf 0x120AB)) (.node 0xC15E0C79F9 (.leaf 0x1F6D0) (.leaf 0x104A9)))) (.node 0xC17B220AFD (.node 0xC1683AD930 (.node 0xC1636229F2 (.leaf 0xD7F3) (.leaf 0x29EE)) (.node 0xC16E8C9378 (.leaf 0x269E) (.leaf 0x12526))) (.node 0xC17B22BFFD (.node 0xC17B22B4FD (.leaf 0x168A7) (.leaf 0x169BE)) (.node 0xC17F12ACFD (.leaf 0x169DF) (.leaf 0x16994))))
def nameTree_1463 : NameTree := .node 0xC14B7E80CF (.node 0xC145AF815C (.node 0xC137F10786 (.node 0xC137F10586 (.leaf 0x1F080) (.node 0xC137F10686 (.leaf 0x1F081) (.leaf 0x1F082))) (.node 0xC137F10986 (.node 0xC137F10886 (.leaf 0x1F083) (.leaf 0x1F084)) (.node 0xC1444E5FBB (.leaf 0x1F085) (.leaf 0xFC4C)))) (.node 0xC14B787ACF (.node 0xC14B7372CF (.node 0xC14B7172CF (.leaf 0xFFE1) (.leaf 0x1A37)) (.node 0xC14B7476CF (.leaf 0x1A2F) (.leaf 0x1A51))) (.node 0xC14B7C72CF (.node 0xC14B7B72CF (.leaf 0x1A4E) (.leaf 0x1A43)) (.node 0xC14B7D72CF (.leaf 0x1A3E) (.leaf 0x1A36))))) (nameTree_1462)
def nameTree_1464 : NameTree := .node 0xC1A8CFC2E2 (.node 0xC1A8CAC2E2 (.node 0xC1A8C8D6E2 (.node 0xC1A8C7C2E2 (.leaf 0xA4DA) (.leaf 0xA4D3)) (.node 0xC1A8C9C2E2 (.leaf 0xA4F1) (.leaf 0xA4E9))) (.node 0xC1A8CDC2E2 (.node 0xC1A8CBC2E2 (.leaf 0xA4D6) (.leaf 0xA4E6)) (.node 0xC1A8CEC2E2 (.leaf 0xA4D9) (.leaf 0xA4D7)))) (.node 0xC1A8D3C2E2 (.node 0xC1A8D1C2E2 (.node 0xC1A8D0C2E2 (.leaf 0xA4E1) (.leaf 0xA4DF)) (.node 0xC1A8D2C6E2 (.leaf 0xA4E0) (.leaf 0xA4F7))) (.node 0xC1A8D7C2E2 (.node 0xC1A8D6C2E2 (.leaf 0xA4D1) (.leaf 0xA4E2)) (.node 0xC1A8D8C6E2 (.leaf 0xA4D4) (.leaf 0xA4F5))))
def nameTree_1465 : NameTree := .node 0xC1A8C6C2E2 (.node 0xC18BBDB78B (.node 0xC18B12B8FD (.node 0xC189B714C2 (.leaf 0x267E) (.node 0xC18AB507C2 (.leaf 0x1DA8A) (.leaf 0x1DA87))) (.node 0xC18B1C60FD (.node 0xC18B1C5DFD (.leaf 0x169B2) (.leaf 0x16934)) (.node 0xC18B8FDEA0 (.leaf 0x16936) (.leaf 0x1F694)))) (.node 0xC197512EA2 (.node 0xC190BA7087 (.node 0xC18BC0FC90 (.leaf 0x23AF) (.leaf 0x649)) (.node 0xC19552B7FF (.leaf 0x1D1AB) (.leaf 0x6C4))) (.node 0xC1A8C4C6E2 (.node 0xC19923148E (.leaf 0x2941) (.leaf 0x26EE)) (.node 0xC1A8C5C2E2 (.leaf 0xA4EF) (.leaf 0xA4D0))))) (nameTree_1464)
def nameTree_1466 : NameTree := .node 0xC1AF258FBB (.node 0xC1AF1C97BB (.node 0xC1A8DCC2E2 (.node 0xC1A8DAC2E2 (.leaf 0xA4F6) (.node 0xC1A8DBC2E2 (.leaf 0xA4EA) (.leaf 0xA4E7))) (.node 0xC1AEC06695 (.node 0xC1A8DDC2E2 (.leaf 0xA4EC) (.leaf 0xA4E4)) (.node 0xC1AF1C8FBB (.leaf 0xA7A8) (.leaf 0x11681)))) (.node 0xC1AF1F8FBB (.node 0xC1AF1D8FBB (.node 0xC1AF1CA3BB (.leaf 0x11687) (.leaf 0x11689)) (.node 0xC1AF1E8FBB (.leaf 0x116A0) (.leaf 0x1168F))) (.node 0xC1AF238FBB (.node 0xC1AF228FBB (.leaf 0x1169B) (.leaf 0x1168C)) (.node 0xC1AF2497BB (.leaf 0x116A9) (.leaf 0x11683))))) (.node 0xC1AF2E8FBB (.node 0xC1AF288FBB (.node 0xC1AF268FBB (.leaf 0x11691) (.node 0xC1AF278FBB (.leaf 0x1168A) (.leaf 0x116A5))) (.node 0xC1AF2B8FBB (.node 0xC1AF298FBB (.leaf 0x116A2) (.leaf 0x1169D)) (.node 0xC1AF2D8FBB (.leaf 0x1169E) (.leaf 0x116A4)))) (.node 0xC1AF348FBB (.node 0xC1AF30A3BB (.node 0xC1AF2F8FBB (.leaf 0x116A8) (.leaf 0x11699)) (.node 0xC1AF318FBB (.leaf 0x11685) (.leaf 0x116A6))) (.node 0xC1B4821AA1 (.node 0xC1B1154B9B (.leaf 0x116A3) (.leaf 0x1D0C)) (.node 0xC1BB5D1316 (.leaf 0x18DE) (.leaf 0x1DA5D)))))
def nameTree_1467 : NameTree := .node 0xC1E4886A56 (.node 0xC1DE886E56 (.node 0xC1DE886C56 (.node 0xC1DE886B56 (.leaf 0x1B0F2) (.leaf 0x1B0F3)) (.node 0xC1DE886D56 (.leaf 0x1B0F4) (.leaf 0x1B0F5))) (.node 0xC1E0F0F8D3 (.node 0xC1DE886F56 (.leaf 0x1B0F6) (.leaf 0x1B0F7)) (.node 0xC1E4886956 (.leaf 0x1689) (.leaf 0x1B102)))) (.node 0xC1E4886E56 (.node 0xC1E4886C56 (.node 0xC1E4886B56 (.leaf 0x1B103) (.leaf 0x1B104)) (.node 0xC1E4886D56 (.leaf 0x1B105) (.leaf 0x1B106))) (.node 0xC1EA886956 (.node 0xC1E7B8564E (.leaf 0x1B107) (.leaf 0x734)) (.node 0xC1EA886A56 (.leaf 0x1B0F8) (.leaf 0x1B0F9))))
def nameTree_1468 : NameTree := .node 0xC1DE886A56 (.node 0xC1D6886A56 (.node 0xC1CE119686 (.node 0xC1C9EB6892 (.leaf 0x1F5BB) (.node 0xC1CCA1FAE6 (.leaf 0x11643) (.leaf 0xFBFE))) (.node 0xC1D37ADBB5 (.node 0xC1D295E454 (.leaf 0x2E46) (.leaf 0x24FD)) (.node 0xC1D6886956 (.leaf 0x26A4) (.leaf 0x1B0ED)))) (.node 0xC1DA886A56 (.node 0xC1D6886C56 (.node 0xC1D6886B56 (.leaf 0x1B0EE) (.leaf 0x1B0EF)) (.node 0xC1DA886956 (.leaf 0x1B0F0) (.leaf 0x1B0FE))) (.node 0xC1DA886C56 (.node 0xC1DA886B56 (.leaf 0x1B0FF) (.leaf 0x1B100)) (.node 0xC1DE886956 (.leaf 0x1B101) (.leaf 0x1B0F1))))) (nameTree_1467)
def nameTree_1469 : NameTree := .node 0xC21DD2DC89 (.node 0xC218DB28BF (.node 0xC21861D81E (.node 0xC2185CD71E (.leaf 0x1043C) (.leaf 0x1044D)) (.node 0xC21862D81E (.leaf 0x10447) (.leaf 0x10443))) (.node 0xC21ADD2321 (.node 0xC21A4FE91E (.leaf 0x2FF3) (.leaf 0x10440)) (.node 0xC21D53D51E (.leaf 0x1F01F) (.leaf 0x1043E)))) (.node 0xC22753D51E (.node 0xC22353D51E (.node 0xC21E4FE91E (.leaf 0x1F931) (.leaf 0x1043F)) (.node 0xC2258685CF (.leaf 0x10439) (.leaf 0xFB32))) (.node 0xC22953D51E (.node 0xC2280821F1 (.leaf 0x1043B) (.leaf 0xFE58)) (.node 0xC22C53D51E (.leaf 0x10442) (.leaf 0x10437))))
def nameTree_1470 : NameTree := .node 0xC21753D51E (.node 0xC1FAFE4567 (.node 0xC1EA886E56 (.node 0xC1EA886C56 (.leaf 0x1B0FA) (.node 0xC1EA886D56 (.leaf 0x1B0FB) (.leaf 0x1B0FC))) (.node 0xC1F58E4567 (.node 0xC1EA8DA64D (.leaf 0x1B0FD) (.leaf 0x1D9AA)) (.node 0xC1F5B14DA4 (.leaf 0x1D75A) (.leaf 0x2A53)))) (.node 0xC20E5E01AC (.node 0xC208175D88 (.node 0xC2080F4412 (.leaf 0x1D76A) (.leaf 0x483)) (.node 0xC20DA26493 (.leaf 0xFBF8) (.leaf 0xFC37))) (.node 0xC21553D51E (.node 0xC20F4F4415 (.leaf 0x1135D) (.leaf 0x333)) (.node 0xC2158DF4BB (.leaf 0x1043A) (.leaf 0x16801))))) (nameTree_1469)
def nameTree_1471 : NameTree := .node 0xC27B78625D (.node 0xC25CD34919 (.node 0xC25841F496 (.node 0xC2537CDD5A (.leaf 0x2466) (.leaf 0x1140)) (.node 0xC25C9821D5 (.leaf 0xA627) (.leaf 0xDD2))) (.node 0xC265686201 (.node 0xC2636A9C58 (.leaf 0x1DA6D) (.leaf 0x1D8D6)) (.node 0xC269E56EB4 (.leaf 0x23F7) (.leaf 0x2983)))) (.node 0xC27B78665D (.node 0xC27B78645D (.node 0xC27B78635D (.leaf 0x1F130) (.leaf 0x1F131)) (.node 0xC27B78655D (.leaf 0x1F132) (.leaf 0x1F133))) (.node 0xC27B78685D (.node 0xC27B78675D (.leaf 0x1F134) (.leaf 0x1F135)) (.node 0xC27B78695D (.leaf 0x1F136) (.leaf 0x1F137))))
def nameTree_1472 : NameTree := .node 0xC252B7FABB (.node 0xC237F10786 (.node 0xC237F10386 (.node 0xC2332047B4 (.leaf 0x10446) (.node 0xC23510D7BC (.leaf 0x1EE5D) (.leaf 0x109EF))) (.node 0xC237F10586 (.node 0xC237F10486 (.leaf 0x1F086) (.leaf 0x1F087)) (.node 0xC237F10686 (.leaf 0x1F088) (.leaf 0x1F089)))) (.node 0xC2445955C6 (.node 0xC237F10986 (.node 0xC237F10886 (.leaf 0x1F08A) (.leaf 0x1F08B)) (.node 0xC23FEE4FA8 (.leaf 0x1F08C) (.leaf 0x24EF))) (.node 0xC250CDE173 (.node 0xC24C7FBB79 (.leaf 0x24F0) (.leaf 0x1D0A7)) (.node 0xC25252B69B (.leaf 0xFEDA) (.leaf 0x1122))))) (nameTree_1471)
def nameTree_1473 : NameTree := .node 0xC27B78795D (.node 0xC27B78715D (.node 0xC27B786D5D (.node 0xC27B786B5D (.leaf 0x1F138) (.node 0xC27B786C5D (.leaf 0x1F139) (.leaf 0x1F13A))) (.node 0xC27B786F5D (.node 0xC27B786E5D (.leaf 0x1F13B) (.leaf 0x1F13C)) (.node 0xC27B78705D (.leaf 0x1F13D) (.leaf 0x1F13E)))) (.node 0xC27B78755D (.node 0xC27B78735D (.node 0xC27B78725D (.leaf 0x1F13F) (.leaf 0x1F140)) (.node 0xC27B78745D (.leaf 0x1F141) (.leaf 0x1F142))) (.node 0xC27B78775D (.node 0xC27B78765D (.leaf 0x1F143) (.leaf 0x1F144)) (.node 0xC27B78785D (.leaf 0x1F145) (.leaf 0x1F146))))) (.node 0xC29A0CD2AD (.node 0xC27D8A4DDD (.node 0xC27B787A5D (.leaf 0x1F147) (.node 0xC27B787B5D (.leaf 0x1F148) (.leaf 0x1F149))) (.node 0xC28901639F (.node 0xC28132683E (.leaf 0x323E) (.leaf 0x217B)) (.node 0xC28B1C5481 (.leaf 0x2A8E) (.leaf 0x217A)))) (.node 0xC2A717D2AD (.node 0xC29EC2F8E7 (.node 0xC29C18CAAD (.leaf 0x1D74C) (.leaf 0x1D73C)) (.node 0xC2A70CD2AD (.leaf 0x25DA) (.leaf 0x1D74B))) (.node 0xC2A9E4351F (.node 0xC2A90CD8AD (.leaf 0x1D74D) (.leaf 0x1D746)) (.node 0xC2AA2906D6 (.leaf 0x32F) (.leaf 0x1014E)))))
def nameTree_1474 : NameTree := .node 0xC2DE886E56 (.node 0xC2DE886A56 (.node 0xC2DA886D56 (.node 0xC2DA886C56 (.leaf 0x1B054) (.leaf 0x1B055)) (.node 0xC2DE886956 (.leaf 0x1B056) (.leaf 0x1B044))) (.node 0xC2DE886C56 (.node 0xC2DE886B56 (.leaf 0x1B045) (.leaf 0x1B046)) (.node 0xC2DE886D56 (.leaf 0x1B047) (.leaf 0x1B048)))) (.node 0xC2E4886C56 (.node 0xC2E4886A56 (.node 0xC2E4886956 (.leaf 0x1B049) (.leaf 0x1B057)) (.node 0xC2E4886B56 (.leaf 0x1B058) (.leaf 0x1B059))) (.node 0xC2E4886E56 (.node 0xC2E4886D56 (.leaf 0x1B05A) (.leaf 0x1B05B)) (.node 0xC2E4886F56 (.leaf 0x1B05C) (.leaf 0x1B05D))))
def nameTree_1475 : NameTree := .node 0xC2DA886B56 (.node 0xC2D6886B56 (.node 0xC2C7BED0A5 (.node 0xC2AD63E78B (.leaf 0x1D749) (.node 0xC2AEB2D9AA (.leaf 0x11A69) (.leaf 0xFFE6))) (.node 0xC2D6886956 (.node 0xC2D2EDFED3 (.leaf 0xA20) (.leaf 0x1687)) (.node 0xC2D6886A56 (.leaf 0x1B03C) (.leaf 0x1B03D)))) (.node 0xC2D6886F56 (.node 0xC2D6886D56 (.node 0xC2D6886C56 (.leaf 0x1B03E) (.leaf 0x1B03F)) (.node 0xC2D6886E56 (.leaf 0x1B040) (.leaf 0x1B041))) (.node 0xC2DA886956 (.node 0xC2D6887056 (.leaf 0x1B042) (.leaf 0x1B043)) (.node 0xC2DA886A56 (.leaf 0x1B052) (.leaf 0x1B053))))) (nameTree_1474)
def nameTree_1476 : NameTree := .node 0xC2FA1602ED (.node 0xC2F91503ED (.node 0xC2F91501ED (.node 0xC2F6C93F8F (.leaf 0x1040B) (.leaf 0xA70C)) (.node 0xC2F91502ED (.leaf 0x283F) (.leaf 0x285F))) (.node 0xC2F91603ED (.node 0xC2F91602ED (.leaf 0x289F) (.leaf 0x286F)) (.node 0xC2F91703ED (.leaf 0x28AF) (.leaf 0x28CF)))) (.node 0xC314BC1624 (.node 0xC2FA1703ED (.node 0xC2FA1603ED (.leaf 0x2877) (.leaf 0x28B7)) (.node 0xC2FB1703ED (.leaf 0x28D7) (.leaf 0x28E7))) (.node 0xC316AA3713 (.node 0xC315CAE7C4 (.leaf 0x2B2D) (.leaf 0x2B1A)) (.node 0xC318D89CFF (.leaf 0x33F) (.leaf 0x111F2))))
def nameTree_1477 : NameTree := .node 0xC2F1C5B860 (.node 0xC2EA886E56 (.node 0xC2EA886A56 (.node 0xC2E9C8DC17 (.leaf 0x1243E) (.node 0xC2EA886956 (.leaf 0x1243F) (.leaf 0x1B04A))) (.node 0xC2EA886C56 (.node 0xC2EA886B56 (.leaf 0x1B04B) (.leaf 0x1B04C)) (.node 0xC2EA886D56 (.leaf 0x1B04D) (.leaf 0x1B04E)))) (.node 0xC2EFE69EA5 (.node 0xC2EA887056 (.node 0xC2EA886F56 (.leaf 0x1B04F) (.leaf 0x1B050)) (.node 0xC2EBC9504B (.leaf 0x1B051) (.leaf 0x489))) (.node 0xC2F1B7B160 (.node 0xC2F015C96C (.leaf 0x1E2D) (.leaf 0x316C)) (.node 0xC2F1B9EE19 (.leaf 0x10409) (.leaf 0x2D70))))) (nameTree_1476)
def nameTree_1478 : NameTree := .node 0xC37DAEFEC2 (.node 0xC367FB1AEE (.node 0xC3594CD9AA (.node 0xC34FFA9E9C (.leaf 0x247) (.leaf 0x1F803)) (.node 0xC3658FD108 (.leaf 0xFFE5) (.leaf 0x2556))) (.node 0xC36D963CDB (.node 0xC36BFB1AEE (.leaf 0x1098B) (.leaf 0x1098D)) (.node 0xC375E69B48 (.leaf 0x69A) (.leaf 0x1D165)))) (.node 0xC387710E70 (.node 0xC38225D532 (.node 0xC380D87EFE (.leaf 0xFE54) (.leaf 0x1F375)) (.node 0xC382770E2E (.leaf 0x26B) (.leaf 0x250A))) (.node 0xC39173E285 (.node 0xC38D641C59 (.leaf 0x11C) (.leaf 0x1EC7)) (.node 0xC395C0A41B (.leaf 0xFD01) (.leaf 0x1D132))))
def nameTree_1479 : NameTree := .node 0xC33E9AAEB6 (.node 0xC337F10386 (.node 0xC32B0A3DB4 (.node 0xC326F3B3E3 (.leaf 0x1D03F) (.node 0xC327D891C5 (.leaf 0x1D027) (.leaf 0xFCEB))) (.node 0xC3319D61ED (.node 0xC3319659ED (.leaf 0x228A) (.leaf 0x1D041)) (.node 0xC333B08FE0 (.leaf 0x1D049) (.leaf 0x23DE)))) (.node 0xC337F10786 (.node 0xC337F10586 (.node 0xC337F10486 (.leaf 0x1F08D) (.leaf 0x1F08E)) (.node 0xC337F10686 (.leaf 0x1F08F) (.leaf 0x1F090))) (.node 0xC337F10986 (.node 0xC337F10886 (.leaf 0x1F091) (.leaf 0x1F092)) (.node 0xC33CD6AFBE (.leaf 0x1F093) (.leaf 0x2396))))) (nameTree_1478)
def nameTree_1480 : NameTree := .node 0xC3C4A0361C (.node 0xC3A9FB0660 (.node 0xC39816A31C (.node 0xC3980CAF1C (.leaf 0x1D761) (.node 0xC3980EA31C (.leaf 0x1D762) (.leaf 0x1D765))) (.node 0xC3A3EE48CB (.node 0xC3A286A5F3 (.leaf 0x1D763) (.leaf 0x1F310)) (.node 0xC3A6CFE7CA (.leaf 0x23D4) (.leaf 0x22EC)))) (.node 0xC3B495D3A9 (.node 0xC3B1520486 (.node 0xC3ACA76B87 (.leaf 0x23A0) (.leaf 0xB02)) (.node 0xC3B34942EE (.leaf 0x461) (.leaf 0xAB3E))) (.node 0xC3BC4DF74A (.node 0xC3BB190967 (.leaf 0x1DC9) (.leaf 0x11103)) (.node 0xC3C12ED5EC (.leaf 0x673) (.leaf 0x15E))))) (.node 0xC3D6886956 (.node 0xC3CCC04D7E (.node 0xC3C5AA0F7A (.leaf 0x1D00B) (.node 0xC3CCC04C7E (.leaf 0x292A) (.leaf 0x11C44))) (.node 0xC3D591C35D (.node 0xC3D030CC83 (.leaf 0x11C45) (.leaf 0x2349)) (.node 0xC3D5CDA0C7 (.leaf 0x950) (.leaf 0x1DA0E)))) (.node 0xC3D6C33255 (.node 0xC3D6886B56 (.node 0xC3D6886A56 (.leaf 0x1B05E) (.leaf 0x1B05F)) (.node 0xC3D6886C56 (.leaf 0x1B060) (.leaf 0x1B061))) (.node 0xC3D85C78DC (.node 0xC3D7F784E3 (.leaf 0x6DF) (.leaf 0x1D120)) (.node 0xC3DA886956 (.leaf 0x26FC) (.leaf 0x1B06E)))))
def nameTree_1481 : NameTree := .node 0xC3EA886956 (.node 0xC3E4886B56 (.node 0xC3E4886956 (.node 0xC3E059C19A (.leaf 0x1B068) (.leaf 0xA8F9)) (.node 0xC3E4886A56 (.leaf 0x1B077) (.leaf 0x1B078))) (.node 0xC3E4886D56 (.node 0xC3E4886C56 (.leaf 0x1B079) (.leaf 0x1B07A)) (.node 0xC3E4886E56 (.leaf 0x1B07B) (.leaf 0x1B07C)))) (.node 0xC3F40AB52D (.node 0xC3EA886B56 (.node 0xC3EA886A56 (.leaf 0x1B069) (.leaf 0x1B06A)) (.node 0xC3EA886C56 (.leaf 0x1B06B) (.leaf 0x1B06C))) (.node 0xC3FA160344 (.node 0xC3FA1602ED (.leaf 0x1D9E0) (.leaf 0x287B)) (.node 0xC3FA1603ED (.leaf 0x287D) (.leaf 0x28BB))))
def nameTree_1482 : NameTree := .node 0xC3DE886F56 (.node 0xC3DA887156 (.node 0xC3DA886D56 (.node 0xC3DA886B56 (.leaf 0x1B06F) (.node 0xC3DA886C56 (.leaf 0x1B070) (.leaf 0x1B071))) (.node 0xC3DA886F56 (.node 0xC3DA886E56 (.leaf 0x1B072) (.leaf 0x1B073)) (.node 0xC3DA887056 (.leaf 0x1B074) (.leaf 0x1B075)))) (.node 0xC3DE886B56 (.node 0xC3DE886956 (.node 0xC3DC85F9CA (.leaf 0x1B076) (.leaf 0x2518)) (.node 0xC3DE886A56 (.leaf 0x1B062) (.leaf 0x1B063))) (.node 0xC3DE886D56 (.node 0xC3DE886C56 (.leaf 0x1B064) (.leaf 0x1B065)) (.node 0xC3DE886E56 (.leaf 0x1B066) (.leaf 0x1B067))))) (nameTree_1481)
def nameTree_1483 : NameTree := .node 0xC438EEAFAD (.node 0xC4228A9134 (.node 0xC41A0C93A3 (.node 0xC4195D7B5C (.leaf 0x1D78B) (.leaf 0x1AA2)) (.node 0xC41DDB4FC8 (.leaf 0x21E8) (.leaf 0x1D020))) (.node 0xC42583D34E (.node 0xC423FBAEE8 (.leaf 0x10FC) (.leaf 0x2E91)) (.node 0xC42AACE7C8 (.leaf 0x4A1) (.leaf 0x33F0)))) (.node 0xC43C7DE0C3 (.node 0xC43B22A35E (.node 0xC43B0DFD73 (.leaf 0x16C1) (.leaf 0x11A47)) (.node 0xC43B7DE6C3 (.leaf 0xFB53) (.leaf 0x3374))) (.node 0xC43C91E4C3 (.node 0xC43C7DE4C3 (.leaf 0x3388) (.leaf 0x2293)) (.node 0xC43DA03741 (.leaf 0x2294) (.leaf 0xD7E1))))
def nameTree_1484 : NameTree := .node 0xC413C7EBF1 (.node 0xC3FB170444 (.node 0xC3FA1703ED (.node 0xC3FA165A44 (.leaf 0x28BD) (.node 0xC3FA165B44 (.leaf 0x287E) (.leaf 0x28BE))) (.node 0xC3FA175B44 (.node 0xC3FA170444 (.leaf 0x28DB) (.leaf 0x28DD)) (.node 0xC3FB1703ED (.leaf 0x28DE) (.leaf 0x28EB)))) (.node 0xC407B21822 (.node 0xC4036A6EEC (.node 0xC3FB175B44 (.leaf 0x28ED) (.leaf 0x28EE)) (.node 0xC4063D759A (.leaf 0x1AAD) (.leaf 0x1C3C))) (.node 0xC40D670EE0 (.node 0xC40B605D0A (.leaf 0x206A) (.leaf 0x121D9)) (.node 0xC40D6B815C (.leaf 0x11DF) (.leaf 0x1A60))))) (nameTree_1483)
def nameTree_1485 : NameTree := .node 0xC46A9C43B4 (.node 0xC4524B3C8E (.node 0xC44D8BE2C3 (.node 0xC44D84EEC3 (.leaf 0x33AD) (.leaf 0x3394)) (.node 0xC44E8BE2C3 (.leaf 0x3327) (.leaf 0x3306))) (.node 0xC467156083 (.node 0xC4524C9A41 (.leaf 0x11D2) (.leaf 0x11D3)) (.node 0xC46A9B41AA (.leaf 0x12112) (.leaf 0x789)))) (.node 0xC47A1C0B74 (.node 0xC47816F1D5 (.node 0xC477BDDD05 (.leaf 0x790) (.leaf 0xED5)) (.node 0xC478C4ED98 (.leaf 0x23AD) (.leaf 0x1F561))) (.node 0xC47B7C394D (.node 0xC47ABC9C69 (.leaf 0x623) (.leaf 0x17B1)) (.node 0xC47DBCEA05 (.leaf 0x1228E) (.leaf 0xED4))))
def nameTree_1486 : NameTree := .node 0xC44B7DD8C3 (.node 0xC4448CD5C3 (.node 0xC4408CD5C3 (.node 0xC4407DE0C3 (.leaf 0x32CD) (.node 0xC44084EEC3 (.leaf 0x33FF) (.leaf 0x3393))) (.node 0xC4418CD5C3 (.node 0xC4418BE2C3 (.leaf 0x33AC) (.leaf 0x333F)) (.node 0xC44484EEC3 (.leaf 0x3371) (.leaf 0x3391)))) (.node 0xC4468BE0C3 (.node 0xC44684EEC3 (.node 0xC4458BDBC3 (.leaf 0x33AA) (.leaf 0x33D2)) (.node 0xC44685E0C3 (.leaf 0x3392) (.leaf 0x33D5))) (.node 0xC44837070B (.node 0xC4468CD5C3 (.leaf 0x33D6) (.leaf 0x33AB)) (.node 0xC4498CE1C3 (.leaf 0xA7B2) (.leaf 0x33D9))))) (nameTree_1485)
def nameTree_1487 : NameTree := .node 0xC4C35E622D (.node 0xC4A405E371 (.node 0xC4978FFF36 (.node 0xC4935005D9 (.leaf 0x17B2) (.node 0xC494E7F826 (.leaf 0x20B6) (.leaf 0x606))) (.node 0xC49A2E113C (.node 0xC4985BB03A (.leaf 0x124CF) (.leaf 0x2257)) (.node 0xC4A06A48EA (.leaf 0x30A) (.leaf 0x2279)))) (.node 0xC4AE1CE22B (.node 0xC4A8F4C002 (.node 0xC4A5A82C01 (.leaf 0x811) (.leaf 0xFC7F)) (.node 0xC4ACFE64F0 (.leaf 0x6B6) (.leaf 0x9E6))) (.node 0xC4C07E7F37 (.node 0xC4AF24DA2B (.leaf 0x3E3) (.leaf 0x2CA5)) (.node 0xC4C0BE7D7A (.leaf 0x21BA) (.leaf 0xFE3F))))) (.node 0xC4CC4A3B70 (.node 0xC4CC4A2470 (.node 0xC4C4018938 (.leaf 0x10480) (.node 0xC4C97E6E4D (.leaf 0x1D80C) (.leaf 0x1F589))) (.node 0xC4CC4A2A70 (.node 0xC4CC4A2970 (.leaf 0x212D) (.leaf 0x210C)) (.node 0xC4CC4A3370 (.leaf 0x2111) (.leaf 0x211C)))) (.node 0xC4D53CDCE3 (.node 0xC4CF480596 (.node 0xC4CF436988 (.leaf 0x2128) (.leaf 0xA742)) (.node 0xC4CF662A6B (.leaf 0xFE9E) (.leaf 0xFEE2))) (.node 0xC4D85D47D4 (.node 0xC4D7E25813 (.leaf 0x11301) (.leaf 0x8EB)) (.node 0xC4DBB46EB9 (.leaf 0x2359) (.leaf 0x5BB)))))
def nameTree_1488 : NameTree := .node 0xC4F72B98B2 (.node 0xC4E4FAA070 (.node 0xC4E2CC67AB (.node 0xC4E2C975AB (.leaf 0x1099A) (.leaf 0x1099C)) (.node 0xC4E2CE67AB (.leaf 0x10985) (.leaf 0x10984))) (.node 0xC4F3837F7A (.node 0xC4ED337415 (.leaf 0x1F8A9) (.leaf 0xFEB2)) (.node 0xC4F39A9B72 (.leaf 0x2AC3) (.leaf 0x2572)))) (.node 0xC4FB170444 (.node 0xC4FAC6C20F (.node 0xC4FAA7E24B (.leaf 0x111E5) (.leaf 0x2A20)) (.node 0xC4FB1703ED (.leaf 0xAB5A) (.leaf 0x28F3))) (.node 0xC4FB175B44 (.node 0xC4FB17049B (.leaf 0x28F5) (.leaf 0x28F9)) (.node 0xC4FB175B9B (.leaf 0x28F6) (.leaf 0x28FA))))
def nameTree_1489 : NameTree := .node 0xC4E2C96BAB (.node 0xC4E2C367AB (.node 0xC4E2B967AB (.node 0xC4DF4DA1CE (.leaf 0xFE62) (.node 0xC4E2B767AB (.leaf 0xFE79) (.leaf 0x10986))) (.node 0xC4E2C167AB (.node 0xC4E2C067AB (.leaf 0x1099D) (.leaf 0x10996)) (.node 0xC4E2C267AB (.leaf 0x10990) (.leaf 0x10989)))) (.node 0xC4E2C767AB (.node 0xC4E2C567AB (.node 0xC4E2C36BAB (.leaf 0x1098A) (.leaf 0x1098C)) (.node 0xC4E2C667AB (.leaf 0x10988) (.leaf 0x10997))) (.node 0xC4E2C86BAB (.node 0xC4E2C867AB (.leaf 0x1098E) (.leaf 0x10993)) (.node 0xC4E2C967AB (.leaf 0x10995) (.leaf 0x10998))))) (nameTree_1488)
def nameTree_1490 : NameTree := .node 0xC5744321AB (.node 0xC5523B7E8E (.node 0xC54CB45290 (.node 0xC54BB65F90 (.leaf 0x1F242) (.leaf 0xFE13)) (.node 0xC54EB7F212 (.leaf 0xFE10) (.leaf 0x2462))) (.node 0xC573807DC5 (.node 0xC55441EBED (.leaf 0x1203B) (.leaf 0xA623)) (.node 0xC5738A89C5 (.leaf 0x10534) (.leaf 0x10552)))) (.node 0xC58D5F561A (.node 0xC586B139D1 (.node 0xC57CA14121 (.leaf 0xA827) (.leaf 0xE003F)) (.node 0xC58B5DEBBA (.leaf 0xD7EC) (.leaf 0x2540))) (.node 0xC58F08A3AE (.node 0xC58ECB237D (.leaf 0x1D9F0) (.leaf 0x19DE)) (.node 0xC5921A8AC3 (.leaf 0x1B43) (.leaf 0x111D0))))
def nameTree_1491 : NameTree := .node 0xC541DE2E4A (.node 0xC51C074848 (.node 0xC508B0F439 (.node 0xC4FC6BE89C (.leaf 0x28FC) (.node 0xC4FD2AA5B2 (.leaf 0x1F3B9) (.leaf 0x111E4))) (.node 0xC50D3D0B7D (.node 0xC50AD22CC5 (.leaf 0x29A0) (.leaf 0x1D14B)) (.node 0xC51656D32C (.leaf 0x1E51) (.leaf 0x12236)))) (.node 0xC539DBB4C4 (.node 0xC51F5A3B96 (.node 0xC51DCDC3B9 (.leaf 0x492) (.leaf 0x1E5D)) (.node 0xC532C79552 (.leaf 0x5A3) (.leaf 0x232))) (.node 0xC53B484F71 (.node 0xC53A7C6E4A (.leaf 0x2CCC) (.leaf 0x215A)) (.node 0xC541D6244A (.leaf 0x1B5C) (.leaf 0x1F241))))) (nameTree_1490)
def nameTree_1492 : NameTree := .node 0xC5EE284668 (.node 0xC5E6B9F726 (.node 0xC5E6284668 (.node 0xC5E47FBF88 (.leaf 0x168C) (.leaf 0x118E5)) (.node 0xC5E6384668 (.leaf 0x1A21) (.leaf 0x1A22))) (.node 0xC5EB284668 (.node 0xC5EA7ECC88 (.leaf 0x2300) (.leaf 0x118E4)) (.node 0xC5ED161858 (.leaf 0x1A39) (.leaf 0x25B6)))) (.node 0xC5FAE1B624 (.node 0xC5EF284668 (.node 0xC5EE334668 (.leaf 0x1A46) (.leaf 0x1A47)) (.node 0xC5F8ACCA1C (.leaf 0x1A33) (.leaf 0xA8F1))) (.node 0xC5FF9BA52F (.node 0xC5FBCCF277 (.leaf 0x2353) (.leaf 0x2127)) (.node 0xC5FF9BA92F (.leaf 0x1BE7) (.leaf 0x1BEA))))
def nameTree_1493 : NameTree := .node 0xC5E0F700D3 (.node 0xC5BD5C2309 (.node 0xC5AE2B6E19 (.node 0xC5A3BC94B4 (.leaf 0xA962) (.node 0xC5AD88A3B0 (.leaf 0xE57) (.leaf 0x208E))) (.node 0xC5B7502809 (.node 0xC5B473CA03 (.leaf 0x2A19) (.leaf 0xFED5)) (.node 0xC5BC5B032A (.leaf 0x1F701) (.leaf 0x481)))) (.node 0xC5CD482E09 (.node 0xC5C70C1A6B (.node 0xC5C5502209 (.leaf 0x1F749) (.leaf 0x1F746)) (.node 0xC5CA91E8AA (.leaf 0x2A3C) (.leaf 0xAB40))) (.node 0xC5D4865834 (.node 0xC5D182A9A5 (.leaf 0x1F74A) (.leaf 0x2199)) (.node 0xC5DE284668 (.leaf 0x4DDC) (.leaf 0x1A28))))) (nameTree_1492)
def nameTree_1494 : NameTree := .node 0xC6371C004E (.node 0xC602E5FFA3 (.node 0xC601CEFFA3 (.node 0xC5FF9BB52F (.leaf 0x1BEC) (.node 0xC600EDCA89 (.leaf 0x1BEE) (.leaf 0x2935))) (.node 0xC602D0FFA3 (.node 0xC601E511C1 (.leaf 0xA942) (.leaf 0x1D196)) (.node 0xC602D3FFA3 (.leaf 0xA944) (.leaf 0xA932)))) (.node 0xC62D51AC93 (.node 0xC61A182575 (.node 0xC60A4F5DAD (.leaf 0xA93B) (.leaf 0xA702)) (.node 0xC61D3F77E5 (.leaf 0xA70B) (.leaf 0xF4))) (.node 0xC62F144B57 (.node 0xC62EEA2F4A (.leaf 0x4EA) (.leaf 0x1F247)) (.node 0xC6308CED80 (.leaf 0x2B7B) (.leaf 0x12314))))) (.node 0xC64A823CF0 (.node 0xC63F365542 (.node 0xC6378A6D2E (.leaf 0x108E1) (.node 0xC63EDE244A (.leaf 0x1F87E) (.leaf 0x1F243))) (.node 0xC643BAFBF9 (.node 0xC6431E1117 (.leaf 0xFCF1) (.leaf 0x23CE)) (.node 0xC64944F5D4 (.leaf 0x2467) (.leaf 0xA628)))) (.node 0xC656D06B70 (.node 0xC64A893CF0 (.node 0xC64A883CF0 (.leaf 0x11A87) (.leaf 0x11A86)) (.node 0xC6551C49F8 (.leaf 0x11A89) (.leaf 0x1D1D6))) (.node 0xC6615D3ECC (.node 0xC65889B2C0 (.leaf 0x12014) (.leaf 0x1807)) (.node 0xC6662C2FFA (.leaf 0x1236F) (.leaf 0x2706)))))
def nameTree_1495 : NameTree := .node 0xC6BBC2A1A1 (.node 0xC6BBC29DA1 (.node 0xC6BBC29BA1 (.node 0xC6BBC29AA1 (.leaf 0x1D484) (.leaf 0x1D485)) (.node 0xC6BBC29CA1 (.leaf 0x1D486) (.leaf 0x1D487))) (.node 0xC6BBC29FA1 (.node 0xC6BBC29EA1 (.leaf 0x1D488) (.leaf 0x1D489)) (.node 0xC6BBC2A0A1 (.leaf 0x1D48A) (.leaf 0x1D48B)))) (.node 0xC6BBC2A5A1 (.node 0xC6BBC2A3A1 (.node 0xC6BBC2A2A1 (.leaf 0x1D48C) (.leaf 0x1D48D)) (.node 0xC6BBC2A4A1 (.leaf 0x1D48E) (.leaf 0x1D48F))) (.node 0xC6BBC2A7A1 (.node 0xC6BBC2A6A1 (.leaf 0x1D490) (.leaf 0x1D491)) (.node 0xC6BBC2A8A1 (.leaf 0x1D492) (.leaf 0x1D493))))
def nameTree_1496 : NameTree := .node 0xC6BBC299A1 (.node 0xC69B3C9588 (.node 0xC671BB3DEC (.node 0xC66F0F3159 (.leaf 0x22FB) (.node 0xC66FF24BC0 (.leaf 0x2A4B) (.leaf 0xC5A))) (.node 0xC6893C9588 (.node 0xC67F3A5872 (.leaf 0x32BE) (.leaf 0x1F80B)) (.node 0xC68FBA78DB (.leaf 0x11413) (.leaf 0x16B34)))) (.node 0xC6B92A25F5 (.node 0xC6B4B1DDD2 (.node 0xC6A6087941 (.leaf 0x11419) (.leaf 0x11134)) (.node 0xC6B8726A2D (.leaf 0x3190) (.leaf 0x1048B))) (.node 0xC6BBC297A1 (.node 0xC6B92A39F5 (.leaf 0x122AF) (.leaf 0x122B5)) (.node 0xC6BBC298A1 (.leaf 0x1D482) (.leaf 0x1D483))))) (nameTree_1495)
def nameTree_1497 : NameTree := .node 0xC6D5CE90B0 (.node 0xC6D26433E1 (.node 0xC6D1E0996D (.node 0xC6D1E0926D (.leaf 0x10611) (.leaf 0x10613)) (.node 0xC6D1E1996D (.leaf 0x10614) (.leaf 0x10616))) (.node 0xC6D3CE8DB0 (.node 0xC6D2CE8CB0 (.leaf 0x1E954) (.leaf 0x10742)) (.node 0xC6D4CE8EB0 (.leaf 0x10743) (.leaf 0x10744)))) (.node 0xC6D6886C56 (.node 0xC6D6886A56 (.node 0xC6D6886956 (.leaf 0x10745) (.leaf 0x1B108)) (.node 0xC6D6886B56 (.leaf 0x1B109) (.leaf 0x1B10A))) (.node 0xC6D6CE92B0 (.node 0xC6D6886D56 (.leaf 0x1B10B) (.leaf 0x1B10C)) (.node 0xC6D7CE93B0 (.leaf 0x10746) (.leaf 0x10747))))
def nameTree_1498 : NameTree := .node 0xC6D1DF996D (.node 0xC6BBC2B0A1 (.node 0xC6BBC2ACA1 (.node 0xC6BBC2AAA1 (.leaf 0x1D494) (.node 0xC6BBC2ABA1 (.leaf 0x1D495) (.leaf 0x1D496))) (.node 0xC6BBC2AEA1 (.node 0xC6BBC2ADA1 (.leaf 0x1D497) (.leaf 0x1D498)) (.node 0xC6BBC2AFA1 (.leaf 0x1D499) (.leaf 0x1D49A)))) (.node 0xC6CC6526E1 (.node 0xC6C9C7080A (.node 0xC6BCAF8F77 (.leaf 0x1D49B) (.leaf 0x1EE1)) (.node 0xC6CA8009BF (.leaf 0x213B) (.leaf 0x9F9))) (.node 0xC6D1CE8AB0 (.node 0xC6D0CE89B0 (.leaf 0x1E955) (.leaf 0x10740)) (.node 0xC6D1DF926D (.leaf 0x10741) (.leaf 0x10610))))) (nameTree_1497)
def nameTree_1499 : NameTree := .node 0xC6EAF65020 (.node 0xC6E4886E56 (.node 0xC6E4886C56 (.node 0xC6E4886B56 (.leaf 0x1B117) (.leaf 0x1B118)) (.node 0xC6E4886D56 (.leaf 0x1B119) (.leaf 0x1B11A))) (.node 0xC6EA5DDE01 (.node 0xC6E4886F56 (.leaf 0x1B11B) (.leaf 0x1B11C)) (.node 0xC6EAF64F20 (.leaf 0x357) (.leaf 0x131)))) (.node 0xC6F0EEF417 (.node 0xC6F0EEF217 (.node 0xC6F0EEF117 (.leaf 0x237) (.leaf 0x1D19B)) (.node 0xC6F0EEF317 (.leaf 0x1D19C) (.leaf 0x1D19D))) (.node 0xC6F0EEF617 (.node 0xC6F0EEF517 (.leaf 0x1D19E) (.leaf 0x1D19F)) (.node 0xC6F0EEF717 (.leaf 0x1D1A0) (.leaf 0x1D1A1))))
def nameTree_1500 : NameTree := .node 0xC6E4886A56 (.node 0xC6DE886956 (.node 0xC6DA886B56 (.node 0xC6DA886956 (.leaf 0x10748) (.node 0xC6DA886A56 (.leaf 0x1B112) (.leaf 0x1B113))) (.node 0xC6DB3C988B (.node 0xC6DA886C56 (.leaf 0x1B114) (.leaf 0x1B115)) (.node 0xC6DB7F8117 (.leaf 0xFD8B) (.leaf 0xFC7C)))) (.node 0xC6DE886D56 (.node 0xC6DE886B56 (.node 0xC6DE886A56 (.leaf 0x1B10D) (.leaf 0x1B10E)) (.node 0xC6DE886C56 (.leaf 0x1B10F) (.leaf 0x1B110))) (.node 0xC6E26428FF (.node 0xC6DEF5571B (.leaf 0x1B111) (.leaf 0xA65A)) (.node 0xC6E4886956 (.leaf 0xA617) (.leaf 0x1B116))))) (nameTree_1499)
def nameTree_1501 : NameTree := .node 0xC767FB1AEE (.node 0xC74D2CC66E (.node 0xC74057C535 (.node 0xC737422E3C (.leaf 0x1D013) (.leaf 0x1D98A)) (.node 0xC741926DF7 (.leaf 0x3DD) (.leaf 0x1D7B8))) (.node 0xC7548699EF (.node 0xC7503A6484 (.leaf 0x1F4C3) (.leaf 0x10194)) (.node 0xC7674E316D (.leaf 0x10CE3) (.leaf 0xBB3)))) (.node 0xC76D54316D (.node 0xC76950316D (.node 0xC76949316D (.leaf 0x1098F) (.leaf 0xB99)) (.node 0xC7695B316D (.leaf 0xBA3) (.leaf 0xB9E))) (.node 0xC76DE6AA37 (.node 0xC76D9F2080 (.leaf 0xBB1) (.leaf 0x2A3D)) (.node 0xC76E4A316D (.leaf 0x211) (.leaf 0xBB6))))
def nameTree_1502 : NameTree := .node 0xC735A223E3 (.node 0xC72652E6DB (.node 0xC70443D56A (.node 0xC6F0EEF917 (.leaf 0x1D1A2) (.node 0xC6F9CCEEAB (.leaf 0x1D1A3) (.leaf 0x1F81))) (.node 0xC712D5E70A (.node 0xC70D8B4D60 (.leaf 0x10366) (.leaf 0x300D)) (.node 0xC7220EFDEC (.leaf 0x2054) (.leaf 0x490)))) (.node 0xC731DB224A (.node 0xC7309998B1 (.node 0xC72EDB1E4A (.leaf 0x258A) (.leaf 0x1F245)) (.node 0xC731999293 (.leaf 0x1FF8) (.leaf 0x1F49))) (.node 0xC7327A81FB (.node 0xC7327A75FB (.leaf 0x1F248) (.leaf 0x1712)) (.node 0xC733D82E4A (.leaf 0x1713) (.leaf 0x1F240))))) (nameTree_1501)
def nameTree_1503 : NameTree := .node 0xC7B460E38F (.node 0xC7AD8481D7 (.node 0xC7AA7425D7 (.node 0xC7A9C56EB7 (.leaf 0x2EA4) (.leaf 0xAB4D)) (.node 0xC7ABD008A4 (.leaf 0x2EDE) (.leaf 0x1D344))) (.node 0xC7AF1BDA2B (.node 0xC7AE3126DC (.leaf 0x2EB2) (.leaf 0x2EA5)) (.node 0xC7AF1E4F91 (.leaf 0x2C83) (.leaf 0xFE86)))) (.node 0xC7C5F3BD5C (.node 0xC7B8BB4882 (.node 0xC7B5C8EB0A (.leaf 0x25BB) (.leaf 0x4D5)) (.node 0xC7BC5E682D (.leaf 0xFFE3) (.leaf 0x10486))) (.node 0xC7C65EB636 (.node 0xC7C601EA9C (.leaf 0x23A3) (.leaf 0x1D18E)) (.node 0xC7CB7B1EA5 (.leaf 0x1F00D) (.leaf 0x121CB))))
def nameTree_1504 : NameTree := .node 0xC7A9281CDC (.node 0xC78A53195B (.node 0xC777151DCB (.node 0xC76F56316D (.leaf 0xBB7) (.node 0xC771472AE5 (.leaf 0xB9F) (.leaf 0x1F555))) (.node 0xC7832F337A (.node 0xC77BCE78DB (.leaf 0x625) (.leaf 0x16B36)) (.node 0xC78753195B (.leaf 0x10A58) (.leaf 0x109AE)))) (.node 0xC797272393 (.node 0xC791CF39FF (.node 0xC78C53CA27 (.leaf 0x109AD) (.leaf 0xFE46)) (.node 0xC7971EB0C1 (.leaf 0x8F8) (.leaf 0x11AF1))) (.node 0xC7A56B1BD7 (.node 0xC7995CA2F9 (.leaf 0x325) (.leaf 0x1109A)) (.node 0xC7A87B77D7 (.leaf 0x2EDD) (.leaf 0x2EB1))))) (nameTree_1503)
def nameTree_1505 : NameTree := .node 0xC8338C9C14 (.node 0xC832A246C2 (.node 0xC82D8D8F14 (.node 0xC82CE8244A (.leaf 0x1D055) (.leaf 0x1F244)) (.node 0xC82EF97EA9 (.leaf 0xA9F5) (.leaf 0x1F5AF))) (.node 0xC83305E67E (.node 0xC832EA224A (.leaf 0xA796) (.leaf 0x1F246)) (.node 0xC8332EF2A4 (.leaf 0x1F5D4) (.leaf 0xA752)))) (.node 0xC83A5D0531 (.node 0xC83965F331 (.node 0xC8395BF231 (.leaf 0xA9F4) (.leaf 0x2F7D)) (.node 0xC83A56F531 (.leaf 0x2F44) (.leaf 0x2F24))) (.node 0xC83B5D0531 (.node 0xC83B324769 (.leaf 0x2F38) (.leaf 0x1F3B1)) (.node 0xC83C5CF531 (.leaf 0x2F5C) (.leaf 0x2F5D))))
def nameTree_1506 : NameTree := .node 0xC82CDDC178 (.node 0xC7DAD67770 (.node 0xC7D2DF8D6D (.node 0xC7D0CEA0B0 (.leaf 0x1074D) (.node 0xC7D1CEA1B0 (.leaf 0x1074E) (.leaf 0x1074F))) (.node 0xC7D4DB6A6A (.node 0xC7D2DF8E6D (.leaf 0x1064D) (.leaf 0x1064E)) (.node 0xC7D7EDFAD3 (.leaf 0x8EE) (.leaf 0x1698)))) (.node 0xC7FD3F8BC4 (.node 0xC7F4D28B6C (.node 0xC7DF7D2A41 (.leaf 0x2389) (.leaf 0x2663)) (.node 0xC7F867808E (.leaf 0xAA5F) (.leaf 0xFD53))) (.node 0xC81814CCA3 (.node 0xC81814C2A3 (.leaf 0x1D71D) (.leaf 0x946)) (.node 0xC823528D01 (.leaf 0x94A) (.leaf 0x167E))))) (nameTree_1505)
def nameTree_1507 : NameTree := .node 0xC84B4F0731 (.node 0xC84A4EFE31 (.node 0xC8475BF331 (.node 0xC84759F231 (.leaf 0x2F46) (.leaf 0x2F7C)) (.node 0xC84856F531 (.leaf 0x2F00) (.leaf 0x2F97))) (.node 0xC84A52F231 (.node 0xC84A4F0231 (.leaf 0x2F41) (.leaf 0x2FCF)) (.node 0xC84A62FC31 (.leaf 0x2F9A) (.leaf 0x2F9B)))) (.node 0xC84C64FD31 (.node 0xC84B62FC31 (.node 0xC84B52F331 (.leaf 0x2F48) (.leaf 0x2F92)) (.node 0xC84C52FC31 (.leaf 0x2F47) (.leaf 0x2F17))) (.node 0xC853285EDB (.node 0xC84D60F331 (.leaf 0x2F06) (.leaf 0x2F64)) (.node 0xC854285193 (.leaf 0x5D3) (.leaf 0x5DC))))
def nameTree_1508 : NameTree := .node 0xC8465D0231 (.node 0xC84150F331 (.node 0xC83D4F0231 (.node 0xC83C600731 (.leaf 0x2F02) (.node 0xC83D4F0031 (.leaf 0x2F32) (.leaf 0x2F7F))) (.node 0xC83E5A0731 (.node 0xC83D66F331 (.leaf 0x2FB7) (.leaf 0x2F6C)) (.node 0xC83E630031 (.leaf 0x2FB6) (.leaf 0x2F51)))) (.node 0xC8424F0031 (.node 0xC8418F5AEA (.node 0xC8418F497F (.leaf 0x2F0E) (.leaf 0xFFB9)) (.node 0xC841F41FAC (.leaf 0xFFB3) (.leaf 0x10C48))) (.node 0xC8454EFC31 (.node 0xC84456F231 (.leaf 0x2F78) (.leaf 0x2F07)) (.node 0xC846530231 (.leaf 0x2F08) (.leaf 0x2F79))))) (nameTree_1507)
def nameTree_1509 : NameTree := .node 0xC3980BAF1C (.node 0xC1A8D8C9E2 (.node 0xC037F10686 (.node 0xBFA4E5BC29 (.node 0xBF37F10486 (nameTree_1452) (nameTree_1454)) (.node 0xBFE9F9EABE (nameTree_1456) (nameTree_1458))) (.node 0xC137F10486 (.node 0xC0B15D15C9 (nameTree_1459) (nameTree_1461)) (.node 0xC187CB99F9 (nameTree_1463) (nameTree_1465)))) (.node 0xC27B786A5D (.node 0xC1EA886B56 (.node 0xC1C479BCEA (nameTree_1466) (nameTree_1468)) (.node 0xC22D53D51E (nameTree_1470) (nameTree_1472))) (.node 0xC2E9C8DB17 (.node 0xC2AB05DEAD (nameTree_1473) (nameTree_1475)) (.node 0xC32030B4D9 (nameTree_1477) (nameTree_1479))))) (.node 0xC5FF9BAF2F (.node 0xC47FC5A669 (.node 0xC3FA160444 (.node 0xC3DA886A56 (nameTree_1480) (nameTree_1482)) (.node 0xC43E8EDBC3 (nameTree_1484) (nameTree_1486))) (.node 0xC4FB17B29B (.node 0xC4DE625886 (nameTree_1487) (nameTree_1489)) (.node 0xC5963B9882 (nameTree_1491) (nameTree_1493)))) (.node 0xC6F0EEF817 (.node 0xC6BBC2A9A1 (.node 0xC668EF06EA (nameTree_1494) (nameTree_1496)) (.node 0xC6D8CE94B0 (nameTree_1498) (nameTree_1500))) (.node 0xC7CFCE9FB0 (.node 0xC76E55316D (nameTree_1502) (nameTree_1504)) (.node 0xC83C5D0231 (nameTree_1506) (nameTree_1508)))))
def nameTree_1510 : NameTree := .node 0xC890CB2999 (.node 0xC86F5D735D (.node 0xC8602C6055 (.node 0xC85BF095EB (.leaf 0x1E12) (.node 0xC85F026062 (.leaf 0xFC53) (.leaf 0x1D93F))) (.node 0xC867FB1AEE (.node 0xC8652756D5 (.leaf 0x5D6) (.leaf 0x1E957)) (.node 0xC86CC5A047 (.leaf 0x10994) (.leaf 0x732)))) (.node 0xC874E6F4CD (.node 0xC871E84BC0 (.node 0xC8701FAB6A (.leaf 0x2A66) (.leaf 0x1BC78)) (.node 0xC87244D8BA (.leaf 0xC20) (.leaf 0x2971))) (.node 0xC8851ACAEF (.node 0xC87CDB7891 (.leaf 0x261F) (.leaf 0x1420)) (.node 0xC88814C270 (.leaf 0x392) (.leaf 0x1C85))))) (.node 0xC8A1DE350B (.node 0xC897FEC191 (.node 0xC894C20F93 (.leaf 0x3F3) (.node 0xC895E5EC34 (.leaf 0x225C) (.leaf 0x1D311))) (.node 0xC8A0E38AF3 (.node 0xC89FBC8C0B (.leaf 0x3D1) (.leaf 0xE53)) (.node 0xC8A1584459 (.leaf 0x1245F) (.leaf 0x4A8)))) (.node 0xC8A6BE23E1 (.node 0xC8A3B8082C (.node 0xC8A2BE23E1 (.leaf 0xD7DC) (.leaf 0x1B64)) (.node 0xC8A516B251 (.leaf 0x1D0C2) (.leaf 0x1D771))) (.node 0xC8B0BE23E1 (.node 0xC8AABE23E1 (.leaf 0x1B62) (.leaf 0x1B66)) (.node 0xC8B1F04AC0 (.leaf 0x1B61) (.leaf 0x1F50A)))))
def nameTree_1511 : NameTree := .node 0xC8E36E358B (.node 0xC8E36E318B (.node 0xC8E36E2F8B (.node 0xC8E36E2E8B (.leaf 0x1D403) (.leaf 0x1D404)) (.node 0xC8E36E308B (.leaf 0x1D405) (.leaf 0x1D406))) (.node 0xC8E36E338B (.node 0xC8E36E328B (.leaf 0x1D407) (.leaf 0x1D408)) (.node 0xC8E36E348B (.leaf 0x1D409) (.leaf 0x1D40A)))) (.node 0xC8E36E398B (.node 0xC8E36E378B (.node 0xC8E36E368B (.leaf 0x1D40B) (.leaf 0x1D40C)) (.node 0xC8E36E388B (.leaf 0x1D40D) (.leaf 0x1D40E))) (.node 0xC8E36E3B8B (.node 0xC8E36E3A8B (.leaf 0x1D40F) (.leaf 0x1D410)) (.node 0xC8E36E3C8B (.leaf 0x1D411) (.leaf 0x1D412))))
def nameTree_1512 : NameTree := .node 0xC8E36E2D8B (.node 0xC8D6886A56 (.node 0xC8CB070485 (.node 0xC8BCEBD7FB (.leaf 0x1B63) (.node 0xC8C7B40AEC (.leaf 0x1F7D4) (.leaf 0x1F672))) (.node 0xC8D4BA3D0E (.node 0xC8D0297F65 (.leaf 0x2584) (.leaf 0x23A1)) (.node 0xC8D6886956 (.leaf 0x2A18) (.leaf 0x1B0DD)))) (.node 0xC8E26428FF (.node 0xC8D6886C56 (.node 0xC8D6886B56 (.leaf 0x1B0DE) (.leaf 0x1B0DF)) (.node 0xC8D6886D56 (.leaf 0x1B0E0) (.leaf 0x1B0E1))) (.node 0xC8E36E2B8B (.node 0xC8E36E2A8B (.leaf 0xA61A) (.leaf 0x1D400)) (.node 0xC8E36E2C8B (.leaf 0x1D401) (.leaf 0x1D402))))) (nameTree_1511)
def nameTree_1513 : NameTree := .node 0xC90B51AE1B (.node 0xC8F35FF6BD (.node 0xC8F04330FF (.node 0xC8EA886C56 (.leaf 0x1B0E5) (.leaf 0x1B0E6)) (.node 0xC8F17C635E (.leaf 0xA61E) (.leaf 0x1F6F3))) (.node 0xC90251AE1B (.node 0xC8F51AC0A7 (.leaf 0x2A0A) (.leaf 0xFCAD)) (.node 0xC90A51AE1B (.leaf 0x148F) (.leaf 0x1471)))) (.node 0xC90F51AE1B (.node 0xC90D51AE1B (.node 0xC90C51AE1B (.leaf 0x14D9) (.leaf 0x14A9)) (.node 0xC90EDDF0C7 (.leaf 0x14C6) (.leaf 0xFB27))) (.node 0xC91251AE1B (.node 0xC91158D524 (.leaf 0x1435) (.leaf 0x18E0)) (.node 0xC913495EE0 (.leaf 0x14F3) (.leaf 0x155F))))
def nameTree_1514 : NameTree := .node 0xC8EA886B56 (.node 0xC8E4886956 (.node 0xC8E36E408B (.node 0xC8E36E3E8B (.leaf 0x1D413) (.node 0xC8E36E3F8B (.leaf 0x1D414) (.leaf 0x1D415))) (.node 0xC8E36E428B (.node 0xC8E36E418B (.leaf 0x1D416) (.leaf 0x1D417)) (.node 0xC8E36E438B (.leaf 0x1D418) (.leaf 0x1D419)))) (.node 0xC8E4886D56 (.node 0xC8E4886B56 (.node 0xC8E4886A56 (.leaf 0x1B0E7) (.leaf 0x1B0E8)) (.node 0xC8E4886C56 (.leaf 0x1B0E9) (.leaf 0x1B0EA))) (.node 0xC8EA886956 (.node 0xC8E4886E56 (.leaf 0x1B0EB) (.leaf 0x1B0EC)) (.node 0xC8EA886A56 (.leaf 0x1B0E3) (.leaf 0x1B0E4))))) (nameTree_1513)
def nameTree_1515 : NameTree := .node 0xC94656431A (.node 0xC9426B7895 (.node 0xC93F616F95 (.node 0xC93F616995 (.leaf 0x53B) (.leaf 0x554)) (.node 0xC941616F95 (.leaf 0x53F) (.leaf 0x544))) (.node 0xC943625F5E (.node 0xC9430607E8 (.leaf 0x546) (.leaf 0x3008)) (.node 0xC944616995 (.leaf 0x1368) (.leaf 0x54A)))) (.node 0xC948228013 (.node 0xC947616995 (.node 0xC946616995 (.leaf 0x1D9F8) (.leaf 0x550)) (.node 0xC947646295 (.leaf 0x54D) (.leaf 0x547))) (.node 0xC949D4933F (.node 0xC949182EE3 (.leaf 0x1F714) (.leaf 0x3BF)) (.node 0xC94A617895 (.leaf 0x1F95B) (.leaf 0x54E))))
def nameTree_1516 : NameTree := .node 0xC93D6A6A95 (.node 0xC930C97644 (.node 0xC91851AE1B (.node 0xC91351AE1B (.leaf 0x1561) (.node 0xC916F2BF51 (.leaf 0x1452) (.leaf 0x1F699))) (.node 0xC921DCE773 (.node 0xC91F916DC0 (.leaf 0x152C) (.leaf 0x1D848)) (.node 0xC92C917A71 (.leaf 0x1D8EF) (.leaf 0x10882)))) (.node 0xC937646295 (.node 0xC935756395 (.node 0xC93207163A (.leaf 0x1F653) (.leaf 0xD7EB)) (.node 0xC936616F95 (.leaf 0x531) (.leaf 0x532))) (.node 0xC93A616995 (.node 0xC9395F6995 (.leaf 0x549) (.leaf 0x535)) (.node 0xC93B656E95 (.leaf 0x556) (.leaf 0x533))))) (nameTree_1515)
def nameTree_1517 : NameTree := .node 0xC994BF95F2 (.node 0xC965257A7A (.node 0xC956177C13 (.node 0xC94C94F3BF (.leaf 0x53D) (.node 0xC94E646695 (.leaf 0x1D02C) (.leaf 0x53A))) (.node 0xC964258098 (.node 0xC96116D94E (.leaf 0x1F754) (.leaf 0x16C7)) (.node 0xC9651F8D4E (.leaf 0x1FEA) (.leaf 0xFBAC)))) (.node 0xC9708C819A (.node 0xC968A09367 (.node 0xC967FB1AEE (.leaf 0x1F59) (.leaf 0x10999)) (.node 0xC96BFB1AEE (.leaf 0x11712) (.leaf 0x1099B))) (.node 0xC98699A4D0 (.node 0xC9846C79DC (.leaf 0x10B9A) (.leaf 0x10B7D)) (.node 0xC98FA26B8D (.leaf 0x3186) (.leaf 0x1D9C2))))) (.node 0xC9B3D7C24B (.node 0xC9A4C66544 (.node 0xC994DFE8DB (.leaf 0xE58) (.node 0xC9A2DCC863 (.leaf 0xFBE5) (.leaf 0x12375))) (.node 0xC9A9D35E96 (.node 0xC9A94DC308 (.leaf 0x2393) (.leaf 0xDDE)) (.node 0xC9AEA64ACE (.leaf 0x2B6B) (.leaf 0x235A)))) (.node 0xC9B54A1994 (.node 0xC9B4551994 (.node 0xC9B44A1994 (.leaf 0x1D876) (.leaf 0x103C1)) (.node 0xC9B47F176A (.leaf 0x103C2) (.leaf 0x1F7A4))) (.node 0xC9BC6EE78B (.node 0xC9BB533089 (.leaf 0x103B0) (.leaf 0x25F8)) (.node 0xC9CA0C70F3 (.leaf 0x11A83) (.leaf 0x1D042)))))
def nameTree_1518 : NameTree := .node 0xC9F8AD36B8 (.node 0xC9E440FB6E (.node 0xC9DC2BCA0E (.node 0xC9DAC5A26A (.leaf 0x1F013) (.leaf 0x252E)) (.node 0xC9DF34EF6E (.leaf 0x1F560) (.leaf 0x2711))) (.node 0xC9E756F058 (.node 0xC9E5CF8807 (.leaf 0x1F323) (.leaf 0xF11)) (.node 0xC9F7024887 (.leaf 0x339) (.leaf 0x32D)))) (.node 0xCA02475121 (.node 0xC9FFB9E58C (.node 0xC9F9BAD88C (.leaf 0x1173D) (.leaf 0x2164)) (.node 0xCA004B5121 (.leaf 0x2163) (.leaf 0xA9FE))) (.node 0xCA054B5121 (.node 0xCA024B5121 (.leaf 0xA9ED) (.leaf 0xA9FC)) (.node 0xCA07DBC7E6 (.leaf 0xA9EA) (.leaf 0x2502))))
def nameTree_1519 : NameTree := .node 0xC9D93B6169 (.node 0xC9D10DD514 (.node 0xC9D107D514 (.node 0xC9D103D514 (.leaf 0x1BC5) (.node 0xC9D104D514 (.leaf 0x1BE1) (.leaf 0x1BD1))) (.node 0xC9D10AD514 (.node 0xC9D108D514 (.leaf 0x1BCE) (.leaf 0x1BC2)) (.node 0xC9D10CD514 (.leaf 0x1BD0) (.leaf 0x1BDE)))) (.node 0xC9D113D514 (.node 0xC9D110D514 (.node 0xC9D10ED514 (.leaf 0x1BD4) (.leaf 0x1BC9)) (.node 0xC9D112D514 (.leaf 0x1BC7) (.leaf 0x1BD2))) (.node 0xC9D119D514 (.node 0xC9D117D514 (.leaf 0x1BD8) (.leaf 0x1BCB)) (.node 0xC9D5A6CF18 (.leaf 0x1BDB) (.leaf 0x2006))))) (nameTree_1518)
def nameTree_1520 : NameTree := .node 0xCA2E09FDF7 (.node 0xCA2E09F9F7 (.node 0xCA2E09F7F7 (.node 0xCA2E09F6F7 (.leaf 0x1D570) (.leaf 0x1D571)) (.node 0xCA2E09F8F7 (.leaf 0x1D572) (.leaf 0x1D573))) (.node 0xCA2E09FBF7 (.node 0xCA2E09FAF7 (.leaf 0x1D574) (.leaf 0x1D575)) (.node 0xCA2E09FCF7 (.leaf 0x1D576) (.leaf 0x1D577)))) (.node 0xCA2E0A01F7 (.node 0xCA2E09FFF7 (.node 0xCA2E09FEF7 (.leaf 0x1D578) (.leaf 0x1D579)) (.node 0xCA2E0A00F7 (.leaf 0x1D57A) (.leaf 0x1D57B))) (.node 0xCA2E0A03F7 (.node 0xCA2E0A02F7 (.leaf 0x1D57C) (.leaf 0x1D57D)) (.node 0xCA2E0A04F7 (.leaf 0x1D57E) (.leaf 0x1D57F))))
def nameTree_1521 : NameTree := .node 0xCA2E09F5F7 (.node 0xCA12EAEB62 (.node 0xCA0C515121 (.node 0xCA084B5121 (.leaf 0x217) (.node 0xCA0A4F5121 (.leaf 0xA9EC) (.leaf 0xA9FA))) (.node 0xCA12EAE962 (.node 0xCA0C5C5121 (.leaf 0xA9EF) (.leaf 0xA9E7)) (.node 0xCA12EAEA62 (.leaf 0x1D10D) (.leaf 0x1D10E)))) (.node 0xCA2E09F1F7 (.node 0xCA184AE933 (.node 0xCA16C59C70 (.leaf 0x1D10F) (.leaf 0x2C63)) (.node 0xCA1F236CA8 (.leaf 0xA78E) (.leaf 0x2406))) (.node 0xCA2E09F3F7 (.node 0xCA2E09F2F7 (.leaf 0x1D56C) (.leaf 0x1D56D)) (.node 0xCA2E09F4F7 (.leaf 0x1D56E) (.leaf 0x1D56F))))) (nameTree_1520)
def nameTree_1522 : NameTree := .node 0xCA56507BE6 (.node 0xCA45E80A59 (.node 0xCA3054BF89 (.node 0xCA3053CD89 (.leaf 0xA4B8) (.leaf 0xA49D)) (.node 0xCA4049D07A (.leaf 0xA4B2) (.leaf 0x1F4D8))) (.node 0xCA46C086E2 (.node 0xCA467C950B (.leaf 0x29A6) (.leaf 0x1EC2)) (.node 0xCA4D4E08D1 (.leaf 0x1D13) (.leaf 0x275E)))) (.node 0xCA6A41BA83 (.node 0xCA639DC521 (.node 0xCA5A75705D (.leaf 0x1D105) (.leaf 0x1F9A)) (.node 0xCA664ABD5A (.leaf 0x108AF) (.leaf 0x46C))) (.node 0xCA73CF8936 (.node 0xCA6FF5A3C1 (.leaf 0x1173F) (.leaf 0x2E43)) (.node 0xCA74375664 (.leaf 0x1F4A6) (.leaf 0x2626))))
def nameTree_1523 : NameTree := .node 0xCA3051CD89 (.node 0xCA303ED389 (.node 0xCA2E0A08F7 (.node 0xCA2E0A06F7 (.leaf 0x1D580) (.node 0xCA2E0A07F7 (.leaf 0x1D581) (.leaf 0x1D582))) (.node 0xCA2E0A0AF7 (.node 0xCA2E0A09F7 (.leaf 0x1D583) (.leaf 0x1D584)) (.node 0xCA303DD789 (.leaf 0x1D585) (.leaf 0xA4BC)))) (.node 0xCA3046C789 (.node 0xCA3044CD89 (.node 0xCA3041BF89 (.leaf 0xA4B9) (.leaf 0xA4A1)) (.node 0xCA3045C389 (.leaf 0xA4B3) (.leaf 0xA4C6))) (.node 0xCA3049CE89 (.node 0xCA3047C789 (.leaf 0xA491) (.leaf 0xA498)) (.node 0xCA304ED389 (.leaf 0xA4A9) (.leaf 0xA4A8))))) (nameTree_1522)
def nameTree_1524 : NameTree := .node 0xCABE5F13DA (.node 0xCA9C3BB409 (.node 0xCA76755385 (.node 0xCA76242464 (.leaf 0x1F75D) (.node 0xCA762A2464 (.leaf 0x10CDD) (.leaf 0x10CEC))) (.node 0xCA8EC84C56 (.node 0xCA76755485 (.leaf 0x1B11D) (.leaf 0x1B11E)) (.node 0xCA95EF54AA (.leaf 0x8FA) (.leaf 0x1DF8)))) (.node 0xCAB11A8AD4 (.node 0xCAA48B335C (.node 0xCAA0A37CDC (.leaf 0x12495) (.leaf 0x80E)) (.node 0xCAB0BE1A13 (.leaf 0x11C3C) (.leaf 0xFC80))) (.node 0xCAB52E2294 (.node 0xCAB35C66CA (.leaf 0x1FA3) (.leaf 0xFC77)) (.node 0xCABBA4C13C (.leaf 0x1D904) (.leaf 0xA73A))))) (.node 0xCACA697645 (.node 0xCAC149A150 (.node 0xCAC147A150 (.leaf 0x1A6) (.node 0xCAC148A150 (.leaf 0x1060) (.leaf 0x105F))) (.node 0xCAC81C2CD8 (.node 0xCAC30E63FB (.leaf 0x105E) (.leaf 0x1F358)) (.node 0xCAC8E01765 (.leaf 0x11C57) (.leaf 0x1F15)))) (.node 0xCAD68B1B1C (.node 0xCAD1AED74B (.node 0xCAD0359130 (.leaf 0x2ABF) (.leaf 0x1F91A)) (.node 0xCAD558D402 (.leaf 0x1F430) (.leaf 0x1D8F))) (.node 0xCAE9C7814B (.node 0xCAE6EDFFD3 (.leaf 0x1F01C) (.leaf 0x1682)) (.node 0xCAF2DD01D9 (.leaf 0x120B9) (.leaf 0x120BD)))))
def nameTree_1525 : NameTree := .node 0xCB1DF6F254 (.node 0xCB1153C3E6 (.node 0xCB04D1FED9 (.node 0xCB04CB0BD9 (.leaf 0x120E3) (.leaf 0x120E4)) (.node 0xCB04DF06D9 (.leaf 0x120E5) (.leaf 0x120E8))) (.node 0xCB189689E6 (.node 0xCB15AB9B1A (.leaf 0x236A) (.leaf 0xFEBE)) (.node 0xCB1B3C0A21 (.leaf 0x2E8) (.leaf 0x33E4)))) (.node 0xCB2E23B30E (.node 0xCB213B1721 (.node 0xCB1F4F41B8 (.leaf 0x1ECF) (.leaf 0x10124)) (.node 0xCB260D654E (.leaf 0x33E3) (.leaf 0x3DE))) (.node 0xCB30412182 (.node 0xCB2FEA2335 (.leaf 0xFD57) (.leaf 0x1D061)) (.node 0xCB3242FC91 (.leaf 0x1D05D) (.leaf 0x1D03C))))
def nameTree_1526 : NameTree := .node 0xCB04CB05D9 (.node 0xCAFCCB04D9 (.node 0xCAF8CB0BD9 (.node 0xCAF3DF0BD9 (.leaf 0x120BF) (.node 0xCAF5DEFBD9 (.leaf 0x120C1) (.leaf 0x120C6))) (.node 0xCAF9CB05D9 (.node 0xCAF8D2EDD9 (.leaf 0x120CC) (.leaf 0x120CE)) (.node 0xCAFB332062 (.leaf 0x120D2) (.leaf 0x13F)))) (.node 0xCAFE26FD0D (.node 0xCAFDCB06D9 (.node 0xCAFCD2FDD9 (.leaf 0x120D8) (.leaf 0x120DA)) (.node 0xCAFDDF01D9 (.leaf 0x124C0) (.leaf 0x124C2))) (.node 0xCAFFDF07D9 (.node 0xCAFEBEF534 (.leaf 0xFB5F) (.leaf 0x1D7D8)) (.node 0xCB045E00FE (.leaf 0x120E0) (.leaf 0x1133C))))) (nameTree_1525)
def nameTree_1527 : NameTree := .node 0xCB87169BD1 (.node 0xCB7CC6D474 (.node 0xCB7A98C756 (.node 0xCB7611C61C (.leaf 0x1C3) (.leaf 0xA7F9)) (.node 0xCB7CC6D074 (.leaf 0x11C83) (.leaf 0x1A19))) (.node 0xCB7CC6E074 (.node 0xCB7CC6DA74 (.leaf 0x1A17) (.leaf 0x1A1A)) (.node 0xCB858196D3 (.leaf 0x1A18) (.leaf 0x1DA2D)))) (.node 0xCB98D006F1 (.node 0xCB92C2538B (.node 0xCB90E0E2F3 (.leaf 0x2E1E) (.leaf 0x1F34)) (.node 0xCB98C1608B (.leaf 0x1D7E7) (.leaf 0x1D7E6))) (.node 0xCBA14426B6 (.node 0xCB99C81826 (.leaf 0x1D314) (.leaf 0x336F)) (.node 0xCBA72BDA2B (.leaf 0x1698F) (.leaf 0x2C8D))))
def nameTree_1528 : NameTree := .node 0xCB72675331 (.node 0xCB5CA58112 (.node 0xCB5705321E (.node 0xCB411BA830 (.leaf 0x2E7) (.node 0xCB47CD8A39 (.leaf 0x2052) (.leaf 0x1FAE))) (.node 0xCB59AF1CF3 (.node 0xCB58AA6E12 (.leaf 0x10B8B) (.leaf 0xABF1)) (.node 0xCB5A5C8D58 (.leaf 0x200E) (.leaf 0xA701)))) (.node 0xCB6B280327 (.node 0xCB61274E2C (.node 0xCB5DB37812 (.leaf 0xABF6) (.leaf 0xABF2)) (.node 0xCB62D1F89E (.leaf 0x1E953) (.leaf 0x1F867))) (.node 0xCB6DEFE8DB (.node 0xCB6B375F7A (.leaf 0x12432) (.leaf 0x11366)) (.node 0xCB6E943D96 (.leaf 0xFBD8) (.leaf 0x787))))) (nameTree_1527)
def nameTree_1529 : NameTree := .node 0xCBF8488806 (.node 0xCBF8487406 (.node 0xCBF8457C06 (.node 0xCBED904E4F (.leaf 0x1FFE) (.leaf 0x2B8E)) (.node 0xCBF8467806 (.leaf 0x1454) (.leaf 0x1408))) (.node 0xCBF8487C06 (.node 0xCBF8487806 (.leaf 0x15F4) (.leaf 0x15F1)) (.node 0xCBF8488206 (.leaf 0x15F3) (.leaf 0x15F0)))) (.node 0xCBF84B7C06 (.node 0xCBF84B7406 (.node 0xCBF8497C06 (.leaf 0x15EF) (.leaf 0x1437)) (.node 0xCBF84B7806 (.leaf 0x161B) (.leaf 0x1617))) (.node 0xCBF84B8806 (.node 0xCBF84B8206 (.leaf 0x1619) (.leaf 0x1616)) (.node 0xCBF84C7E06 (.leaf 0x1614) (.leaf 0x1601))))
def nameTree_1530 : NameTree := .node 0xCBE80DEF7F (.node 0xCBD566DDDA (.node 0xCBB4102294 (.node 0xCBAD408BD5 (.leaf 0xFB39) (.node 0xCBB1A5DD8B (.leaf 0x1CC2) (.leaf 0x1D976))) (.node 0xCBCA76357A (.node 0xCBC150EC20 (.leaf 0x1D85C) (.leaf 0x297D)) (.node 0xCBD366CB6B (.leaf 0x1F43B) (.leaf 0x317C)))) (.node 0xCBE20AF798 (.node 0xCBDEA79EFE (.node 0xCBD61A4D4A (.leaf 0x2908) (.leaf 0x10E74)) (.node 0xCBDF8424F9 (.leaf 0xDD9) (.leaf 0x1DA84))) (.node 0xCBE6EDFAD3 (.node 0xCBE5DCF7AF (.leaf 0x1F957) (.leaf 0x1034A)) (.node 0xCBE70DF59D (.leaf 0x168B) (.leaf 0x1FEF))))) (nameTree_1529)
def nameTree_1531 : NameTree := .node 0xCBF84F8806 (.node 0xCBF84E7C06 (.node 0xCBF84D8206 (.node 0xCBF84D7806 (.leaf 0x1627) (.node 0xCBF84D7C06 (.leaf 0x1624) (.leaf 0x1626))) (.node 0xCBF84E7406 (.node 0xCBF84D8806 (.leaf 0x1623) (.leaf 0x1622)) (.node 0xCBF84E7806 (.leaf 0x160D) (.leaf 0x160A)))) (.node 0xCBF84F7806 (.node 0xCBF84E8806 (.node 0xCBF84E8206 (.leaf 0x160C) (.leaf 0x1609)) (.node 0xCBF84F7406 (.leaf 0x1608) (.leaf 0x1607))) (.node 0xCBF84F7C06 (.node 0xCBF84F7A06 (.leaf 0x1604) (.leaf 0x14D1)) (.node 0xCBF84F8206 (.leaf 0x1606) (.leaf 0x1603))))) (.node 0xCBF8537806 (.node 0xCBF8517C06 (.node 0xCBF8517406 (.leaf 0x1602) (.node 0xCBF8517806 (.leaf 0x15ED) (.leaf 0x15EA))) (.node 0xCBF8518806 (.node 0xCBF8518206 (.leaf 0x15EC) (.leaf 0x15E9)) (.node 0xCBF8537406 (.leaf 0x15E8) (.leaf 0x15CF)))) (.node 0xCBF8547406 (.node 0xCBF8538206 (.node 0xCBF8537C06 (.leaf 0x15CC) (.leaf 0x15CE)) (.node 0xCBF8538806 (.leaf 0x15CB) (.leaf 0x15CA))) (.node 0xCBF8547B06 (.node 0xCBF8547806 (.leaf 0x1653) (.leaf 0x1650)) (.node 0xCBF8547C06 (.leaf 0x165A) (.leaf 0x1652)))))
def nameTree_1532 : NameTree := .node 0xCC298D865E (.node 0xCC02339B1A (.node 0xCBFB160FAB (.node 0xCBF85B8806 (.leaf 0x1641) (.leaf 0x1640)) (.node 0xCC02172D32 (.leaf 0x1D8BA) (.leaf 0x2A50))) (.node 0xCC21DACBF0 (.node 0xCC036A75B8 (.leaf 0xFEAA) (.leaf 0x1AA0)) (.node 0xCC25177900 (.leaf 0x256C) (.leaf 0x2A12)))) (.node 0xCC331FD1D7 (.node 0xCC3202A746 (.node 0xCC2C4C8E8B (.leaf 0x1F3E1) (.leaf 0xA744)) (.node 0xCC331FCA71 (.leaf 0x32A6) (.leaf 0x11FE))) (.node 0xCC331FD529 (.node 0xCC331FD27B (.leaf 0x11C3) (.leaf 0x11FA)) (.node 0xCC35019546 (.leaf 0x11FB) (.leaf 0x3280))))
def nameTree_1533 : NameTree := .node 0xCBF85B8206 (.node 0xCBF85A7406 (.node 0xCBF8587806 (.node 0xCBF8548806 (.leaf 0x164F) (.node 0xCBF8587406 (.leaf 0x164E) (.leaf 0x15D5))) (.node 0xCBF8588206 (.node 0xCBF8587C06 (.leaf 0x15D2) (.leaf 0x15D4)) (.node 0xCBF8588806 (.leaf 0x15D1) (.leaf 0x15D0)))) (.node 0xCBF85A8806 (.node 0xCBF85A7C06 (.node 0xCBF85A7806 (.leaf 0x1613) (.leaf 0x1610)) (.node 0xCBF85A8206 (.leaf 0x1612) (.leaf 0x160F))) (.node 0xCBF85B7806 (.node 0xCBF85B7406 (.leaf 0x160E) (.leaf 0x1645)) (.node 0xCBF85B7C06 (.leaf 0x1642) (.leaf 0x1644))))) (nameTree_1532)
def nameTree_1534 : NameTree := .node 0xCC9CE54B6B (.node 0xCC9450F0EF (.node 0xCC9050F0EF (.node 0xCC9050E9EF (.leaf 0x1F6D1) (.leaf 0x3124)) (.node 0xCC9450E9EF (.leaf 0x31A9) (.leaf 0x3125))) (.node 0xCC963C9588 (.node 0xCC949753E0 (.leaf 0x31A5) (.leaf 0xFDA3)) (.node 0xCC9850F0EF (.leaf 0x1141B) (.leaf 0x31AA)))) (.node 0xCCA450F0EF (.node 0xCC9E50E9EF (.node 0xCC9D49E9EF (.leaf 0x21F8) (.leaf 0x31AD)) (.node 0xCC9E50F0EF (.leaf 0x31B2) (.leaf 0x31A7))) (.node 0xCCA71E7D77 (.node 0xCCA71E70F8 (.leaf 0x31AB) (.leaf 0xAB5D)) (.node 0xCCB2FABADB (.leaf 0x1D840) (.leaf 0xFE37))))
def nameTree_1535 : NameTree := .node 0xCC8F9956A5 (.node 0xCC46F1AA9F (.node 0xCC39F89E46 (.node 0xCC38FCA846 (.leaf 0x108E7) (.node 0xCC39089E46 (.leaf 0x3285) (.leaf 0x3290))) (.node 0xCC3EEA4386 (.node 0xCC3A0A9F46 (.leaf 0x3289) (.leaf 0x3281)) (.node 0xCC42394517 (.leaf 0x3F6) (.leaf 0x1F5FA)))) (.node 0xCC743B525F (.node 0xCC484D2BEC (.node 0xCC47F112F6 (.leaf 0x1F36) (.leaf 0x2C52)) (.node 0xCC562A5813 (.leaf 0x23D1) (.leaf 0x1E958))) (.node 0xCC80AFB5A2 (.node 0xCC77B5DD05 (.leaf 0x1F4CA) (.leaf 0xED9)) (.node 0xCC84A2C0FB (.leaf 0xFE47) (.leaf 0xAB46))))) (nameTree_1534)
def nameTree_1536 : NameTree := .node 0xCCE353A75E (.node 0xCCCDBBA496 (.node 0xCCB6AE40BC (.node 0xCCB51A28D1 (.leaf 0x2DFB) (.leaf 0x2DE5)) (.node 0xCCC12E8F93 (.leaf 0x1F5FD) (.leaf 0x13B))) (.node 0xCCD8D95951 (.node 0xCCD4AE075B (.leaf 0x1D88A) (.leaf 0x1F554)) (.node 0xCCDAF3FAD3 (.leaf 0x10377) (.leaf 0x1685)))) (.node 0xCCF6CA8C47 (.node 0xCCE7D35951 (.node 0xCCE354B611 (.leaf 0x11236) (.leaf 0x1123E)) (.node 0xCCF65C379F (.leaf 0x1037A) (.leaf 0xA69C))) (.node 0xCCF6CA8E47 (.node 0xCCF6CA8D47 (.leaf 0x1D223) (.leaf 0x1D224)) (.node 0xCCF6CA8F47 (.leaf 0x1D225) (.leaf 0x1D226))))
def nameTree_1537 : NameTree := .node 0xCCB51938D1 (.node 0xCCB50536D1 (.node 0xCCB5052FD1 (.node 0xCCB50428D1 (.leaf 0x2DE0) (.node 0xCCB50529D1 (.leaf 0x2DE3) (.leaf 0xA69E))) (.node 0xCCB50531D1 (.node 0xCCB50530D1 (.leaf 0x2DE7) (.leaf 0x2DE8)) (.node 0xCCB50535D1 (.leaf 0x2DE9) (.leaf 0x2DEC)))) (.node 0xCCB51028D1 (.node 0xCCB50928D1 (.node 0xCCB50824D1 (.leaf 0x2DED) (.leaf 0x2DEF)) (.node 0xCCB50B24D1 (.leaf 0x2DF7) (.leaf 0x2DE6))) (.node 0xCCB51628D1 (.node 0xCCB51428D1 (.leaf 0x2DEB) (.leaf 0x2DEE)) (.node 0xCCB5192CD1 (.leaf 0x2DE1) (.leaf 0xA676))))) (nameTree_1536)
def nameTree_1538 : NameTree := .node 0xCCF6CD8B47 (.node 0xCCF6CB9247 (.node 0xCCF6CB8E47 (.node 0xCCF6CA9347 (.leaf 0x1D227) (.node 0xCCF6CA9447 (.leaf 0x1D228) (.leaf 0x1D229))) (.node 0xCCF6CB9047 (.node 0xCCF6CB8F47 (.leaf 0x1D22A) (.leaf 0x1D22B)) (.node 0xCCF6CB9147 (.leaf 0x1D22C) (.leaf 0x1D22D)))) (.node 0xCCF6CC9147 (.node 0xCCF6CC8B47 (.node 0xCCF6CB9447 (.leaf 0x1D22E) (.leaf 0x1D22F)) (.node 0xCCF6CC8D47 (.leaf 0x1D230) (.leaf 0x1D231))) (.node 0xCCF6CC9347 (.node 0xCCF6CC9247 (.leaf 0x1D232) (.leaf 0x1D233)) (.node 0xCCF6CC9447 (.leaf 0x1D234) (.leaf 0x1D235))))) (.node 0xCCF6CE8B47 (.node 0xCCF6CD9047 (.node 0xCCF6CD8D47 (.leaf 0x1D236) (.node 0xCCF6CD8E47 (.leaf 0x1D237) (.leaf 0x1D238))) (.node 0xCCF6CD9347 (.node 0xCCF6CD9247 (.leaf 0x1D239) (.leaf 0x1D23A)) (.node 0xCCF6CD9447 (.leaf 0x1D23B) (.leaf 0x1D23C)))) (.node 0xCCF6CE8F47 (.node 0xCCF6CE8D47 (.node 0xCCF6CE8C47 (.leaf 0x1D23D) (.leaf 0x1D23E)) (.node 0xCCF6CE8E47 (.leaf 0x1D23F) (.leaf 0x1D240))) (.node 0xCD05CDE37F (.node 0xCCF72398B2 (.leaf 0x1D241) (.leaf 0x111E9)) (.node 0xCD05D3E37F (.leaf 0x1696) (.leaf 0x1692)))))
def nameTree_1539 : NameTree := .node 0xCD4497D220 (.node 0xCD4493C40C (.node 0xCD3D9D765D (.node 0xCD3C21B7FF (.leaf 0x101DA) (.leaf 0x101EC)) (.node 0xCD3DC4C4D1 (.leaf 0x1D7BE) (.leaf 0x29F4))) (.node 0xCD4497CE0C (.node 0xCD4493C616 (.leaf 0xD7BE) (.leaf 0x11A7)) (.node 0xCD4497D016 (.leaf 0xD7BF) (.leaf 0xD7B0)))) (.node 0xCD4C1F04D9 (.node 0xCD4B21B0FF (.node 0xCD4529A7FF (.leaf 0xD7B5) (.leaf 0x101E0)) (.node 0xCD4BE2881C (.leaf 0x101ED) (.leaf 0x1045B))) (.node 0xCD4E473DD9 (.node 0xCD4C21BAFF (.leaf 0x12119) (.leaf 0x101DF)) (.node 0xCD4F3307D9 (.leaf 0x12120) (.leaf 0x1211B))))
def nameTree_1540 : NameTree := .node 0xCD3B2FBAFF (.node 0xCD36677A08 (.node 0xCD223C476A (.node 0xCD1C0AC519 (.leaf 0x7ED) (.node 0xCD216FC5C1 (.leaf 0x1173C) (.leaf 0x20A0))) (.node 0xCD338F05A4 (.node 0xCD24078319 (.leaf 0x102F8) (.leaf 0x1F536)) (.node 0xCD347FCC20 (.leaf 0x169C) (.leaf 0xD7B6)))) (.node 0xCD39988CA1 (.node 0xCD3839D764 (.node 0xCD382D765D (.leaf 0x2980) (.leaf 0x1D7AE)) (.node 0xCD38753C3C (.leaf 0x1F4BC) (.leaf 0x1F843))) (.node 0xCD3A7FCA16 (.node 0xCD3A7FC80C (.leaf 0x251C) (.leaf 0xD7C1)) (.node 0xCD3B25A8FF (.leaf 0xD7B1) (.leaf 0x101F1))))) (nameTree_1539)
def nameTree_1541 : NameTree := .node 0xCDC3731459 (.node 0xCD9D4474A7 (.node 0xCD90FF486F (.node 0xCD8FFF5C42 (.leaf 0x10A55) (.leaf 0x768)) (.node 0xCD93B80E70 (.leaf 0x1248F) (.leaf 0x124))) (.node 0xCDB018C9CF (.node 0xCDA5969B7B (.leaf 0x1F521) (.leaf 0xE002D)) (.node 0xCDB27AF778 (.leaf 0x1017A) (.leaf 0x1F473)))) (.node 0xCDC751B356 (.node 0xCDC5AF8C36 (.node 0xCDC41C242F (.leaf 0x2720) (.leaf 0x11C53)) (.node 0xCDC69545FA (.leaf 0x2739) (.leaf 0x1D1E))) (.node 0xCDE477BF88 (.node 0xCDC8E0D422 (.leaf 0x2145) (.leaf 0x1DA08)) (.node 0xCDE5C1EAF2 (.leaf 0x118E9) (.leaf 0x1D964))))
def nameTree_1542 : NameTree := .node 0xCD893F337A (.node 0xCD6A9E2622 (.node 0xCD5A1083F9 (.node 0xCD574449D9 (.leaf 0x2B63) (.node 0xCD57F058B3 (.leaf 0x12124) (.leaf 0x5BA))) (.node 0xCD65FE80A7 (.node 0xCD61E6C0DD (.leaf 0x104A0) (.leaf 0x10160)) (.node 0xCD69E23E39 (.leaf 0x8BD) (.leaf 0x39F)))) (.node 0xCD7E044E43 (.node 0xCD7C978A84 (.node 0xCD75156010 (.leaf 0x2290) (.leaf 0x1F830)) (.node 0xCD7DD1E132 (.leaf 0x4DEB) (.leaf 0xFE39))) (.node 0xCD8343B261 (.node 0xCD8309C338 (.leaf 0x1F4B3) (.leaf 0x1F7C5)) (.node 0xCD8355B261 (.leaf 0x1B17) (.leaf 0x1B1C))))) (nameTree_1541)
def nameTree_1543 : NameTree := .node 0xCE66A8632E (.node 0xCE57146E78 (.node 0xCE53133C7B (.node 0xCE4B085DA1 (.leaf 0x1CE6) (.leaf 0x1F6B7)) (.node 0xCE546D4C56 (.leaf 0x2367) (.leaf 0x1F78E))) (.node 0xCE5FE5B3C7 (.node 0xCE5B0B7475 (.leaf 0xFC27) (.leaf 0x5A0)) (.node 0xCE638EF422 (.leaf 0x1F651) (.leaf 0x1D811)))) (.node 0xCE7088A5DE (.node 0xCE68A90233 (.node 0xCE66E78C14 (.leaf 0x111C8) (.leaf 0x26DE)) (.node 0xCE6C6BBAC9 (.leaf 0x1017F) (.leaf 0x100D2))) (.node 0xCE763B3792 (.node 0xCE749C4201 (.leaf 0x1252C) (.leaf 0x782)) (.node 0xCE773C00A0 (.leaf 0x1395) (.leaf 0xFD38))))
def nameTree_1544 : NameTree := .node 0xCE48CDBC70 (.node 0xCE1B3ABE0B (.node 0xCDF93D7A22 (.node 0xCDF44E7FD0 (.leaf 0x1FB4) (.node 0xCDF93D7422 (.leaf 0x1EED) (.leaf 0xA8BC))) (.node 0xCE079225EB (.node 0xCE07064413 (.leaf 0xA8BA) (.leaf 0x25E1)) (.node 0xCE1A256DD1 (.leaf 0x1D319) (.leaf 0x16993)))) (.node 0xCE2B385C7B (.node 0xCE248B2D67 (.node 0xCE1DF53A93 (.leaf 0x1F6B1) (.leaf 0x1F1D)) (.node 0xCE26C2BB35 (.leaf 0x1B16) (.leaf 0x2ADA))) (.node 0xCE455902A1 (.node 0xCE33A2B51A (.leaf 0x1D80E) (.leaf 0x1221A)) (.node 0xCE45F27D21 (.leaf 0x21EF) (.leaf 0x1D08A))))) (nameTree_1543)
def nameTree_1545 : NameTree := .node 0xCE8E68CFBD (.node 0xCE88A686E5 (.node 0xCE840FAE28 (.node 0xCE8168DBBD (.leaf 0x1391) (.node 0xCE8261CFBD (.leaf 0x16A4B) (.leaf 0x16A4A))) (.node 0xCE8661CFBD (.node 0xCE851ACAEF (.leaf 0x2E1F) (.leaf 0x370)) (.node 0xCE8661D5BD (.leaf 0x16A5C) (.leaf 0x16A49)))) (.node 0xCE8B69D3BD (.node 0xCE8A61D4BD (.node 0xCE8A162AD5 (.leaf 0x1F547) (.leaf 0x10751)) (.node 0xCE8A8671DE (.leaf 0x16A5A) (.leaf 0xFD60))) (.node 0xCE8C67CFBD (.node 0xCE8C5F6CB5 (.leaf 0x16A43) (.leaf 0xFEE3)) (.node 0xCE8C69D4BD (.leaf 0x16A41) (.leaf 0x16A4F))))) (.node 0xCE93749193 (.node 0xCE93748C93 (.node 0xCE9168CFBD (.leaf 0x16A47) (.node 0xCE9265D1BD (.leaf 0x16A54) (.leaf 0x16A5E))) (.node 0xCE93748E93 (.node 0xCE93748D93 (.leaf 0x1D4B6) (.leaf 0x1D4B7)) (.node 0xCE93748F93 (.leaf 0x1D4B8) (.leaf 0x1D4B9)))) (.node 0xCE93749693 (.node 0xCE93749493 (.node 0xCE93749393 (.leaf 0x1D4BB) (.leaf 0x1D4BD)) (.node 0xCE93749593 (.leaf 0x1D4BE) (.leaf 0x1D4BF))) (.node 0xCE93749893 (.node 0xCE93749793 (.leaf 0x1D4C0) (.leaf 0x1D4C1)) (.node 0xCE93749993 (.leaf 0x1D4C2) (.leaf 0x1D4C3)))))
def nameTree_1546 : NameTree := .node 0xCEC383830E (.node 0xCEB69EE73A (.node 0xCEB4FCC86A (.node 0xCEAF5FBEF2 (.leaf 0x1D9E7) (.leaf 0x1D939)) (.node 0xCEB69588BE (.leaf 0xFDAC) (.leaf 0x10E76))) (.node 0xCEB91F2E16 (.node 0xCEB85A622D (.leaf 0x9F2) (.leaf 0x1048F)) (.node 0xCEC0DC1D57 (.leaf 0x11C58) (.leaf 0x26E6)))) (.node 0xCED4C93432 (.node 0xCECC809961 (.node 0xCECC5D26E1 (.leaf 0x29B8) (.leaf 0x1E959)) (.node 0xCED2709DE9 (.leaf 0x327A) (.leaf 0x29D8))) (.node 0xCEE9AAB7BE (.node 0xCEE901D85D (.leaf 0xFB55) (.leaf 0x1F30D)) (.node 0xCEF06428FF (.leaf 0xFB75) (.leaf 0xA61F))))
def nameTree_1547 : NameTree := .node 0xCEAE6239E0 (.node 0xCE9374A293 (.node 0xCE93749E93 (.node 0xCE93749C93 (.leaf 0x1D4C5) (.node 0xCE93749D93 (.leaf 0x1D4C6) (.leaf 0x1D4C7))) (.node 0xCE9374A093 (.node 0xCE93749F93 (.leaf 0x1D4C8) (.leaf 0x1D4C9)) (.node 0xCE9374A193 (.leaf 0x1D4CA) (.leaf 0x1D4CB)))) (.node 0xCE9DE4C56A (.node 0xCE9374A493 (.node 0xCE9374A393 (.leaf 0x1D4CC) (.leaf 0x1D4CD)) (.node 0xCE9374A593 (.leaf 0x1D4CE) (.leaf 0x1D4CF))) (.node 0xCEA35BD764 (.node 0xCE9FE71066 (.leaf 0x24FB) (.leaf 0x1D302)) (.node 0xCEABC51846 (.leaf 0x2F4F) (.leaf 0x37E))))) (nameTree_1546)
def nameTree_1548 : NameTree := .node 0xCF4A46373B (.node 0xCF44CD2F94 (.node 0xCF3AC25A5A (.node 0xCF3AC2505A (.leaf 0x11A34) (.leaf 0xA8D)) (.node 0xCF3FB33749 (.leaf 0xA91) (.leaf 0x3B5))) (.node 0xCF4A4625D0 (.node 0xCF45233749 (.leaf 0x1AB6) (.leaf 0x3C5)) (.node 0xCF4A4633E9 (.leaf 0xD7D2) (.leaf 0x11CB)))) (.node 0xCF5964DCA8 (.node 0xCF50E4473C (.node 0xCF4E257DBE (.leaf 0xD7CF) (.leaf 0xFB79)) (.node 0xCF534D1967 (.leaf 0x2942) (.leaf 0x111C4))) (.node 0xCF61F82325 (.node 0xCF5EC5E5EE (.leaf 0x1F569) (.leaf 0x10379)) (.node 0xCF633DA96B (.leaf 0x12078) (.leaf 0x1F5C4))))
def nameTree_1549 : NameTree := .node 0xCF38ECF805 (.node 0xCF1DD0BBDD (.node 0xCF073F8BC4 (.node 0xCEF2EA86A4 (.leaf 0x309) (.node 0xCF06C1A0B8 (.leaf 0x219F) (.leaf 0x23B0))) (.node 0xCF08DD282F (.node 0xCF07A75BA2 (.leaf 0x1D724) (.leaf 0xFB99)) (.node 0xCF0EDC352F (.leaf 0x17E5) (.leaf 0x17E4)))) (.node 0xCF24857251 (.node 0xCF236D3FA7 (.node 0xCF232B6078 (.leaf 0x1166A) (.leaf 0x1D056)) (.node 0xCF24152DEF (.leaf 0x714) (.leaf 0xFC90))) (.node 0xCF3318004E (.node 0xCF2DA8D2A1 (.leaf 0xFCE2) (.leaf 0x12437)) (.node 0xCF33603867 (.leaf 0x108EA) (.leaf 0xAADF))))) (nameTree_1548)
def nameTree_1550 : NameTree := .node 0xCFCB41D3CB (.node 0xCFC47335E8 (.node 0xCFBE6E3387 (.node 0xCFB85A6A2D (.leaf 0x1BA8) (.leaf 0x10490)) (.node 0xCFC4090A4C (.leaf 0x64F) (.leaf 0xFE78))) (.node 0xCFC717902C (.node 0xCFC5693435 (.leaf 0x650) (.leaf 0x64E)) (.node 0xCFC7B467ED (.leaf 0x1D802) (.leaf 0x5B8)))) (.node 0xCFE473F9DE (.node 0xCFD7858E56 (.node 0xCFD71C03DB (.leaf 0x1F993) (.leaf 0x1F49A)) (.node 0xCFD8F88D32 (.leaf 0xAAC0) (.leaf 0x1D97F))) (.node 0xCFE96AAA24 (.node 0xCFE8FFFE91 (.leaf 0x100CF) (.leaf 0xFEAD)) (.node 0xCFED28B91F (.leaf 0x27C3) (.leaf 0x253E))))
def nameTree_1551 : NameTree := .node 0xCFB452B3A5 (.node 0xCF99C12689 (.node 0xCF825CB99F (.node 0xCF7B78EED4 (.leaf 0x1F629) (.node 0xCF7C5DAC9F (.leaf 0x1F537) (.leaf 0x11655))) (.node 0xCF8A3CEA5B (.node 0xCF89C45707 (.leaf 0x11654) (.leaf 0xFE9C)) (.node 0xCF8F1ACAEF (.leaf 0xFB69) (.leaf 0x399)))) (.node 0xCFAAEEC707 (.node 0xCFA9D2013E (.node 0xCFA31C9C36 (.leaf 0x2EC) (.leaf 0x10E7A)) (.node 0xCFAAEEC407 (.leaf 0x1D308) (.leaf 0xFB03))) (.node 0xCFAF16B251 (.node 0xCFABDB6E5E (.leaf 0xFB04) (.leaf 0x111CB)) (.node 0xCFB1C18B0C (.leaf 0x1D778) (.leaf 0x1EDD))))) (nameTree_1550)
def nameTree_1552 : NameTree := .node 0xD02715FA49 (.node 0xD01A34A6B1 (.node 0xD005301723 (.node 0xCFF66428FF (.leaf 0x1DA0D) (.node 0xD002F0A4A3 (.leaf 0xA61C) (.leaf 0x1D026))) (.node 0xD01574AA87 (.node 0xD00D6D18E9 (.leaf 0x785) (.leaf 0x227D)) (.node 0xD018309FB1 (.leaf 0x22DA) (.leaf 0x5DA)))) (.node 0xD0270A0249 (.node 0xD02554C4D7 (.node 0xD01B44A7B1 (.leaf 0x5DD) (.leaf 0x5DF)) (.node 0xD0265349EF (.leaf 0x2230) (.leaf 0x19D5))) (.node 0xD02710FE49 (.node 0xD0270CFA49 (.leaf 0x1D0EC) (.leaf 0x1D0EB)) (.node 0xD027140249 (.leaf 0x1D0ED) (.leaf 0x1D0EF))))) (.node 0xD03866FA5C (.node 0xD02D858F14 (.node 0xD027200849 (.leaf 0x1D0E9) (.node 0xD02C5256EF (.leaf 0x1D0EE) (.leaf 0x19D4))) (.node 0xD032CEB4C4 (.node 0xD031C4DDA5 (.leaf 0xA9F9) (.leaf 0x21ED)) (.node 0xD034F79557 (.leaf 0x2CC4) (.leaf 0x20EB)))) (.node 0xD049343788 (.node 0xD03CF99E57 (.node 0xD03C8D83BD (.leaf 0x16800) (.leaf 0x1F9D7)) (.node 0xD046F2F361 (.leaf 0x1F786) (.leaf 0x298C))) (.node 0xD04AF68E4A (.node 0xD0496CA049 (.leaf 0x1F04) (.leaf 0x1F57A)) (.node 0xD0542857E0 (.leaf 0xFC35) (.leaf 0x5D2)))))
def nameTree_1553 : NameTree := .node 0xD0B1570EC9 (.node 0xD0A8A722F1 (.node 0xD0A5EA441C (.node 0xD09DDFAC8A (.leaf 0x255F) (.leaf 0x27D4)) (.node 0xD0A62BE02C (.leaf 0x2259) (.leaf 0x1F7C2))) (.node 0xD0A92016E5 (.node 0xD0A8A728F1 (.leaf 0x1E026) (.leaf 0x1E023)) (.node 0xD0AE6C18DF (.leaf 0xFC4E) (.leaf 0x1F63)))) (.node 0xD0D3AFDF8F (.node 0xD0C0626A2D (.node 0xD0BBD5E0A9 (.leaf 0xA643) (.leaf 0x1F3B)) (.node 0xD0C65304C9 (.leaf 0x10491) (.leaf 0x52B))) (.node 0xD0D93060DD (.node 0xD0D8131378 (.leaf 0xA99C) (.leaf 0x2F4)) (.node 0xD0D95E30E1 (.leaf 0x1F62A) (.leaf 0x2915))))
def nameTree_1554 : NameTree := .node 0xD08A6B482A (.node 0xD06288931B (.node 0xD05C43601C (.node 0xD05A3D74C2 (.leaf 0x8A3) (.node 0xD05B03B660 (.leaf 0x1D894) (.leaf 0x1F789))) (.node 0xD05DE68092 (.node 0xD05DCD6D0D (.leaf 0x110BF) (.leaf 0x27ED)) (.node 0xD05FCBE83C (.leaf 0xFD93) (.leaf 0x1D9A4)))) (.node 0xD07800CB84 (.node 0xD06683A61B (.node 0xD062DD33DD (.leaf 0x6F1) (.leaf 0x27F)) (.node 0xD067919D1B (.leaf 0x6F6) (.leaf 0x6F2))) (.node 0xD083F3F1B9 (.node 0xD07A896F17 (.leaf 0x1F608) (.leaf 0x109BD)) (.node 0xD08441DB80 (.leaf 0x1F4E8) (.leaf 0x2346))))) (nameTree_1553)
def nameTree_1555 : NameTree := .node 0xD134356C88 (.node 0xD11B902D67 (.node 0xD115007976 (.node 0xD1146E3EE5 (.leaf 0x1BE0) (.leaf 0x17CF)) (.node 0xD118D5F4CE (.leaf 0x1BC84) (.leaf 0xD03))) (.node 0xD12AE2D13F (.node 0xD122C00F8A (.leaf 0x1B1B) (.leaf 0xFBF9)) (.node 0xD134356888 (.leaf 0x1D089) (.leaf 0xAA41)))) (.node 0xD134357388 (.node 0xD134356F88 (.node 0xD134356D88 (.leaf 0xAA40) (.leaf 0xAA4A)) (.node 0xD134357188 (.leaf 0xAA46) (.leaf 0xAA47))) (.node 0xD134357A88 (.node 0xD134357588 (.leaf 0xAA49) (.leaf 0xAA45)) (.node 0xD134A45A12 (.leaf 0xAA48) (.leaf 0x1223C))))
def nameTree_1556 : NameTree := .node 0xD10EED796F (.node 0xD0F7413041 (.node 0xD0EAF8F88F (.node 0xD0E6EDFFD3 (.leaf 0x2A21) (.node 0xD0EA413041 (.leaf 0x168F) (.leaf 0x1A2B))) (.node 0xD0F2413041 (.node 0xD0ED6489C1 (.leaf 0x1F0A6) (.leaf 0xFC23)) (.node 0xD0F2513041 (.leaf 0x1A25) (.leaf 0x1A24)))) (.node 0xD1055C2867 (.node 0xD0FB413041 (.node 0xD0F90437D2 (.leaf 0x1A3D) (.leaf 0x1F0B6)) (.node 0xD0FC24CE9E (.leaf 0x1A35) (.leaf 0x111CD))) (.node 0xD10ED8796F (.node 0xD10DD6796F (.leaf 0x1251D) (.leaf 0x1BE3)) (.node 0xD10EDB796F (.leaf 0x1BE2) (.leaf 0x1BDD))))) (nameTree_1555)
def nameTree_1557 : NameTree := .node 0xD18BE227CD (.node 0xD181ADA724 (.node 0xD17B73B148 (.node 0xD175A45A85 (.leaf 0x11362) (.leaf 0x11343)) (.node 0xD17F7AD6F1 (.leaf 0x1F66F) (.leaf 0x2E14))) (.node 0xD18BE223C8 (.node 0xD1870DDF24 (.leaf 0xFEF7) (.leaf 0x273D)) (.node 0xD18BE2247B (.leaf 0x11E2) (.leaf 0xD7DD)))) (.node 0xD1B0E0B675 (.node 0xD199E4BCC1 (.node 0xD18F12C449 (.leaf 0x11E6) (.leaf 0xFCAB)) (.node 0xD1A587A4E7 (.leaf 0x24F7) (.leaf 0x102EA))) (.node 0xD1B4CD24CB (.node 0xD1B1F06294 (.leaf 0xA724) (.leaf 0x1F721)) (.node 0xD1B8A08607 (.leaf 0x1F4E2) (.leaf 0x2A78))))
def nameTree_1558 : NameTree := .node 0xD175A45485 (.node 0xD1519587EB (.node 0xD147823EFB (.node 0xD135424549 (.leaf 0x1238D) (.node 0xD136100736 (.leaf 0x7B) (.leaf 0x30F))) (.node 0xD14AC91455 (.node 0xD14A5AAC28 (.leaf 0x1F5C6) (.leaf 0x1BA)) (.node 0xD14EB7C5B3 (.leaf 0x1366) (.leaf 0x1CE2)))) (.node 0xD15BEF8B1C (.node 0xD1519593EB (.node 0xD151958DEB (.leaf 0xAA2A) (.leaf 0xAA2F)) (.node 0xD159E6E27C (.leaf 0xAA2D) (.leaf 0x2AA9))) (.node 0xD1660750A8 (.node 0xD160273E41 (.leaf 0x10459) (.leaf 0xA759)) (.node 0xD17460B75A (.leaf 0x529) (.leaf 0x27C0))))) (nameTree_1557)
def nameTree_1559 : NameTree := .node 0xD20F2B66F5 (.node 0xD20B0DDEDA (.node 0xD20B0DD5DA (.node 0xD202AC6A3D (.leaf 0x1D31A) (.leaf 0xA6F0)) (.node 0xD20B0DD8DA (.leaf 0x2D42) (.leaf 0x2D3E))) (.node 0xD20E2A5BF5 (.node 0xD20DADCD43 (.leaf 0x2D48) (.leaf 0x1D6F3)) (.node 0xD20F265BF5 (.leaf 0xAAE2) (.leaf 0xAAE6)))) (.node 0xD2133765F5 (.node 0xD2111914BC (.node 0xD20F6B4A6B (.leaf 0xABD7) (.leaf 0xFC83)) (.node 0xD2123165F5 (.leaf 0x1144F) (.leaf 0xABD2))) (.node 0xD2157FA9B4 (.node 0xD2152B66F5 (.leaf 0xABCD) (.leaf 0xABD6)) (.node 0xD2163165F5 (.leaf 0x32CB) (.leaf 0xABC0))))
def nameTree_1560 : NameTree := .node 0xD200697985 (.node 0xD1D46B2294 (.node 0xD1CC6E6A2D (.node 0xD1BD6DB081 (.leaf 0x1D144) (.node 0xD1C0FD5AE2 (.leaf 0x103D4) (.leaf 0x486))) (.node 0xD1D23B8754 (.node 0xD1CE93196F (.leaf 0x10492) (.leaf 0x10755)) (.node 0xD1D2EDF8D3 (.leaf 0x337) (.leaf 0x1684)))) (.node 0xD1F56F423B (.node 0xD1E2DE590B (.node 0xD1E1010210 (.leaf 0x12433) (.leaf 0x1A03)) (.node 0xD1F2F90210 (.leaf 0x21DF) (.leaf 0x1A0F))) (.node 0xD1F9B2D88C (.node 0xD1F77B033E (.leaf 0x1144B) (.leaf 0x1689E)) (.node 0xD1FA3C5B0F (.leaf 0x2168) (.leaf 0x1D0DE))))) (nameTree_1559)
def nameTree_1561 : NameTree := .node 0xD2357F3EF3 (.node 0xD23578F900 (.node 0xD2333869F3 (.node 0xD2323CA30D (.leaf 0x11F4) (.leaf 0x124B8)) (.node 0xD2349471DD (.leaf 0xD7F7) (.leaf 0x26D9))) (.node 0xD2357F3BA1 (.node 0xD2357F3AEE (.leaf 0x1D887) (.leaf 0x11F7)) (.node 0xD2357F3C45 (.leaf 0x11F6) (.leaf 0x11F5)))) (.node 0xD237C610A1 (.node 0xD237C60288 (.node 0xD2365AE07B (.leaf 0x11F8) (.leaf 0x2B6F)) (.node 0xD237C6093B (.leaf 0xD7E2) (.leaf 0x11E1))) (.node 0xD237C613F3 (.node 0xD237C61145 (.leaf 0x11DB) (.leaf 0xD7DE)) (.node 0xD23802DE3B (.leaf 0x11DC) (.leaf 0x11B6))))
def nameTree_1562 : NameTree := .node 0xD22D4428B9 (.node 0xD21E355BF5 (.node 0xD2193B5BF5 (.node 0xD2182B6EF5 (.leaf 0xABC2) (.node 0xD219305BF5 (.leaf 0xABC3) (.leaf 0xAAE8))) (.node 0xD21E2367F5 (.node 0xD21D2363F5 (.leaf 0xAAE3) (.leaf 0xABD4)) (.node 0xD21E2A5BF5 (.leaf 0xABC1) (.leaf 0xAAE9)))) (.node 0xD2257F4973 (.node 0xD21F365BF5 (.node 0xD21F2B66F5 (.leaf 0xAAEA) (.leaf 0xABC7)) (.node 0xD2222363F5 (.leaf 0xAAE4) (.leaf 0xABCB))) (.node 0xD2288D7A71 (.node 0xD225941245 (.leaf 0x2580) (.leaf 0xFDF6)) (.node 0xD22CE8CBBA (.leaf 0x1088E) (.leaf 0x109DF))))) (nameTree_1561)
def nameTree_1563 : NameTree := .node 0xD263A2CFAB (.node 0xD2450644D9 (.node 0xD2426B11D2 (.node 0xD2426B08D2 (.leaf 0x16A0) (.leaf 0xA51F)) (.node 0xD2427512D2 (.leaf 0xA605) (.leaf 0xA590))) (.node 0xD249E26350 (.node 0xD245A041C4 (.leaf 0x2222) (.leaf 0x1F87B)) (.node 0xD2607BB2ED (.leaf 0x1FF6) (.leaf 0xFC18)))) (.node 0xD26E1B8B38 (.node 0xD268EBB298 (.node 0xD2654CF8EC (.leaf 0xFEE1) (.leaf 0x24A)) (.node 0xD26C3F368D (.leaf 0x1FED) (.leaf 0x1397))) (.node 0xD27C487A28 (.node 0xD26E3B3531 (.leaf 0x121D3) (.leaf 0x1394)) (.node 0xD2823F3C54 (.leaf 0x1F5B4) (.leaf 0x1390))))
def nameTree_1564 : NameTree := .node 0xD241E2B923 (.node 0xD23923BC3B (.node 0xD2383A9388 (.node 0xD23802E645 (.leaf 0x11B1) (.node 0xD23802E8F3 (.leaf 0x11CD) (.leaf 0x11B2))) (.node 0xD2383AA1A1 (.node 0xD2383A9A3B (.leaf 0x11AC) (.leaf 0x11AD)) (.node 0xD23923B588 (.leaf 0xD7CB) (.leaf 0xD7E8)))) (.node 0xD23CF378B9 (.node 0xD23923C3A1 (.node 0xD23923C2EE (.leaf 0x11E5) (.leaf 0xD7E5)) (.node 0xD2395E1E10 (.leaf 0x11E3) (.leaf 0x1DA))) (.node 0xD23D75127B (.node 0xD23D6B087B (.leaf 0x1D76F) (.leaf 0xA50A)) (.node 0xD23EBBC268 (.leaf 0xA57B) (.leaf 0x4DEE))))) (nameTree_1563)
def nameTree_1565 : NameTree := .node 0xD2FCAB3024 (.node 0xD2E7A563AE (.node 0xD2DE32BB17 (.node 0xD2DA0B5FB3 (.leaf 0x12273) (.leaf 0x1F59B)) (.node 0xD2E6CE372F (.leaf 0x109DE) (.leaf 0xFEFC))) (.node 0xD2F1964C67 (.node 0xD2F087F8E9 (.leaf 0x1F65) (.leaf 0x100CD)) (.node 0xD2FB76FD34 (.leaf 0x1DE9) (.leaf 0x5C)))) (.node 0xD315202D67 (.node 0xD3010849C0 (.node 0xD2FEA03624 (.leaf 0x1D2A) (.leaf 0x1D29)) (.node 0xD3095BABBA (.leaf 0xA66F) (.leaf 0x1FC0))) (.node 0xD31B340A21 (.node 0xD315AB133F (.leaf 0x1B19) (.leaf 0x1D137)) (.node 0xD3210DC338 (.leaf 0x33E8) (.leaf 0xA714))))
def nameTree_1566 : NameTree := .node 0xD2D80034A0 (.node 0xD2A47463EF (.node 0xD294F005DB (.node 0xD28EBFA4E6 (.leaf 0x259B) (.node 0xD28EE7C6A8 (.leaf 0x2B07) (.leaf 0x24FC))) (.node 0xD29EFDC412 (.node 0xD29EC7A92B (.leaf 0x11AF3) (.leaf 0x3250)) (.node 0xD2A0615058 (.leaf 0x1F92E) (.leaf 0x7A7)))) (.node 0xD2C0664C1C (.node 0xD2BC63E78B (.node 0xD2B0CA3178 (.leaf 0x21AD) (.leaf 0x222F)) (.node 0xD2BD63E78B (.leaf 0x11A76) (.leaf 0x11A67))) (.node 0xD2C9FBBB80 (.node 0xD2C5FBD5E2 (.leaf 0x110BE) (.leaf 0x270E)) (.node 0xD2D361FED0 (.leaf 0xD5B) (.leaf 0xFCFA))))) (nameTree_1565)
def nameTree_1567 : NameTree := .node 0xCCF6CA9247 (.node 0xCA758DFA5B (.node 0xC94C616995 (.node 0xC8E36E3D8B (.node 0xC8B6BE23E1 (nameTree_1510) (nameTree_1512)) (.node 0xC9134962E0 (nameTree_1514) (nameTree_1516))) (.node 0xCA080A08E7 (.node 0xC9D102D514 (nameTree_1517) (nameTree_1519)) (.node 0xCA2E0A05F7 (nameTree_1521) (nameTree_1523)))) (.node 0xCBF84D7406 (.node 0xCB3573F223 (.node 0xCAF3CAFDD9 (nameTree_1524) (nameTree_1526)) (.node 0xCBA82AE712 (nameTree_1528) (nameTree_1530))) (.node 0xCC371C004E (.node 0xCBF8548206 (nameTree_1531) (nameTree_1533)) (.node 0xCCB50228D1 (nameTree_1535) (nameTree_1537))))) (.node 0xCFF2FD0D50 (.node 0xCE7A3F3531 (.node 0xCD518623FF (.node 0xCD1B88BCFA (nameTree_1538) (nameTree_1540)) (.node 0xCDED03C882 (nameTree_1542) (nameTree_1544))) (.node 0xCEF288EA40 (.node 0xCE93749B93 (nameTree_1545) (nameTree_1547)) (.node 0xCF7449A318 (nameTree_1549) (nameTree_1551)))) (.node 0xD1BCAA68EE (.node 0xD0E3D24C97 (.node 0xD055CAB376 (nameTree_1552) (nameTree_1554)) (.node 0xD134BA5212 (nameTree_1556) (nameTree_1558))) (.node 0xD23802E4EE (.node 0xD2172363F5 (nameTree_1560) (nameTree_1562)) (.node 0xD2899F5384 (nameTree_1564) (nameTree_1566)))))
def nameTree_1568 : NameTree := .node 0xD35C4D2AFD (.node 0xD33FADAD2D (.node 0xD331412C5E (.node 0xD32B5978F8 (.leaf 0x1D988) (.node 0xD32F36B15F (.leaf 0x97D) (.leaf 0x1F6B4))) (.node 0xD33DBB8102 (.node 0xD33B05110F (.leaf 0x1ED8) (.leaf 0x1F790)) (.node 0xD33EE8BA6B (.leaf 0x4DE5) (.leaf 0x122A0)))) (.node 0xD3541E5DB4 (.node 0xD3436B056C (.node 0xD342E8FC59 (.leaf 0xFC68) (.leaf 0x1F397)) (.node 0xD343750F6C (.leaf 0xA511) (.leaf 0xA582))) (.node 0xD3590F2918 (.node 0xD3564E1DFD (.leaf 0x297B) (.leaf 0x11C5E)) (.node 0xD35B1D1227 (.leaf 0x1F793) (.leaf 0x37D))))) (.node 0xD372FB8598 (.node 0xD365ED469F (.node 0xD35CA94854 (.leaf 0x11C5D) (.node 0xD3607D469F (.leaf 0x3207) (.leaf 0x395))) (.node 0xD372FB7D98 (.node 0xD372B1EFD1 (.leaf 0x3A5) (.leaf 0x1EB2)) (.node 0xD372FB8198 (.leaf 0xFFC2) (.leaf 0xFFC7)))) (.node 0xD382E949FE (.node 0xD372FB9198 (.node 0xD372FB8B98 (.leaf 0xFFDC) (.leaf 0xFFCC)) (.node 0xD3789DD920 (.leaf 0xFFD3) (.leaf 0x109D8))) (.node 0xD38CB1252A (.node 0xD38BCD1822 (.leaf 0x2B17) (.leaf 0x1F76C)) (.node 0xD392BA538B (.leaf 0x593) (.leaf 0x1D7EB)))))
def nameTree_1569 : NameTree := .node 0xD3F54B0988 (.node 0xD3F5460188 (.node 0xD3F5440188 (.node 0xD3F5431788 (.leaf 0x914) (.leaf 0x975)) (.node 0xD3F5450188 (.leaf 0x92C) (.leaf 0x91A))) (.node 0xD3F5490188 (.node 0xD3F5480188 (.leaf 0x926) (.leaf 0x95E)) (.node 0xD3F54A0188 (.leaf 0x917) (.leaf 0x939)))) (.node 0xD3F54F0188 (.node 0xD3F54D0188 (.node 0xD3F54C0188 (.leaf 0x908) (.leaf 0x91C)) (.node 0xD3F54E0188 (.leaf 0x915) (.leaf 0x932))) (.node 0xD3F5510588 (.node 0xD3F5500188 (.leaf 0x92E) (.leaf 0x928)) (.node 0xD3F5520188 (.leaf 0x973) (.leaf 0x92A))))
def nameTree_1570 : NameTree := .node 0xD3F5431588 (.node 0xD3D44E80D2 (.node 0xD3C453CDB7 (.node 0xD39D0BDD79 (.leaf 0xA671) (.node 0xD3A213CF3A (.leaf 0x263D) (.leaf 0x293F))) (.node 0xD3CF2D72FB (.node 0xD3C7C7B36D (.leaf 0x12519) (.leaf 0x2B61)) (.node 0xD3D2F8F4D3 (.leaf 0x1B81) (.leaf 0x1686)))) (.node 0xD3E973CCBB (.node 0xD3E01EF6D3 (.node 0xD3D7437BDA (.leaf 0x3315) (.leaf 0x1D301)) (.node 0xD3E42C287D (.leaf 0x2B21) (.leaf 0xFC05))) (.node 0xD3F5430188 (.node 0xD3EE4B7CB5 (.leaf 0x1CDA) (.leaf 0x4DCE)) (.node 0xD3F5430988 (.leaf 0x906) (.leaf 0x910))))) (nameTree_1569)
def nameTree_1571 : NameTree := .node 0xD407E8BF6B (.node 0xD407E8B76B (.node 0xD407E8B56B (.node 0xD407E8B36B (.leaf 0x1D53D) (.leaf 0x1D53E)) (.node 0xD407E8B66B (.leaf 0x1D540) (.leaf 0x1D541))) (.node 0xD407E8B96B (.node 0xD407E8B86B (.leaf 0x1D542) (.leaf 0x1D543)) (.node 0xD407E8BB6B (.leaf 0x1D544) (.leaf 0x1D546)))) (.node 0xD407E8C36B (.node 0xD407E8C16B (.node 0xD407E8C06B (.leaf 0x1D54A) (.leaf 0x1D54B)) (.node 0xD407E8C26B (.leaf 0x1D54C) (.leaf 0x1D54D))) (.node 0xD407E8C56B (.node 0xD407E8C46B (.leaf 0x1D54E) (.leaf 0x1D54F)) (.node 0xD40F288B77 (.leaf 0x1D550) (.leaf 0x1D10C))))
def nameTree_1572 : NameTree := .node 0xD407E8B26B (.node 0xD3F55B0188 (.node 0xD3F5560188 (.node 0xD3F5540188 (.leaf 0x958) (.node 0xD3F5550188 (.leaf 0x930) (.leaf 0x938))) (.node 0xD3F5571588 (.node 0xD3F5570588 (.leaf 0x924) (.leaf 0x976)) (.node 0xD3F5580188 (.leaf 0x90A) (.leaf 0x935)))) (.node 0xD407E8AD6B (.node 0xD3F994A019 (.node 0xD3F55C0188 (.leaf 0x92F) (.leaf 0x95B)) (.node 0xD4018F3578 (.leaf 0xFC36) (.leaf 0x16B39))) (.node 0xD407E8B06B (.node 0xD407E8AE6B (.leaf 0x1D538) (.leaf 0x1D539)) (.node 0xD407E8B16B (.leaf 0x1D53B) (.leaf 0x1D53C))))) (nameTree_1571)
def nameTree_1573 : NameTree := .node 0xD443D0D9F9 (.node 0xD43DC4D8F9 (.node 0xD43B558180 (.node 0xD439BFD3F9 (.leaf 0xF1E) (.leaf 0x118B1)) (.node 0xD43C631462 (.leaf 0xFB97) (.leaf 0x1D8))) (.node 0xD43F3CE761 (.node 0xD43ECFD4F9 (.leaf 0x118BE) (.leaf 0x118B2)) (.node 0xD43F3CF161 (.leaf 0x190) (.leaf 0x186)))) (.node 0xD44FE48F1C (.node 0xD44F27029D (.node 0xD44C75E1B8 (.leaf 0x118AE) (.leaf 0xFC5F)) (.node 0xD44FBCA9D5 (.leaf 0x23B3) (.leaf 0xFBB1))) (.node 0xD45AEFC4D9 (.node 0xD4564731E4 (.leaf 0x10452) (.leaf 0x1F321)) (.node 0xD45E122350 (.leaf 0x2A63) (.leaf 0x1D0C3))))
def nameTree_1574 : NameTree := .node 0xD4380F98AF (.node 0xD42C2E4140 (.node 0xD41F9411AD (.node 0xD411F79C99 (.leaf 0x10844) (.node 0xD415784167 (.leaf 0x10850) (.leaf 0x1B25))) (.node 0xD429DFBA1D (.node 0xD42185BC78 (.leaf 0x213E) (.leaf 0x1D099)) (.node 0xD42BC9D6F9 (.leaf 0x817) (.leaf 0x118AA)))) (.node 0xD42FC9E8F9 (.node 0xD42FC59CC7 (.node 0xD42E0DBF41 (.leaf 0xA9CA) (.leaf 0x11A50)) (.node 0xD42FC9DDF9 (.leaf 0x24E) (.leaf 0x118B0))) (.node 0xD433AB1D3A (.node 0xD432BCE1F9 (.leaf 0x118AD) (.leaf 0x118BC)) (.node 0xD437EAAA6B (.leaf 0x1D053) (.leaf 0x12530))))) (nameTree_1573)
def nameTree_1575 : NameTree := .node 0xD4B85A622D (.node 0xD4802D670E (.node 0xD471F33ED7 (.node 0xD46888F9B1 (.leaf 0x1F861) (.node 0xD468E44364 (.leaf 0x1D9C4) (.leaf 0x1F868))) (.node 0xD47BE6D03F (.node 0xD477C37267 (.leaf 0x2AE7) (.leaf 0x1F303)) (.node 0xD47DEDD73F (.leaf 0x16B3D) (.leaf 0x16B3E)))) (.node 0xD4A5D20DE2 (.node 0xD4961E8EE5 (.node 0xD485007400 (.leaf 0xFC82) (.leaf 0x767)) (.node 0xD4A0E118F6 (.leaf 0xFD11) (.leaf 0x1D33B))) (.node 0xD4B617A084 (.node 0xD4A7E41F9C (.leaf 0x1D346) (.leaf 0xFFEC)) (.node 0xD4B7935807 (.leaf 0x2AFB) (.leaf 0x1D837))))) (.node 0xD4DC6D7D39 (.node 0xD4BF755735 (.node 0xD4B8E51307 (.leaf 0x1048E) (.node 0xD4BE93EA3A (.leaf 0x218A) (.leaf 0x9F3))) (.node 0xD4C8E70A34 (.node 0xD4C4D8D404 (.leaf 0x1398) (.leaf 0x1D875)) (.node 0xD4CE8B15C1 (.leaf 0x1F3DA) (.leaf 0x10752)))) (.node 0xD4E997D101 (.node 0xD4E182EE22 (.node 0xD4DD0C1818 (.leaf 0x25FB) (.leaf 0x20B0)) (.node 0xD4E1DC1C09 (.leaf 0x1F4AD) (.leaf 0x1D033))) (.node 0xD501319A77 (.node 0xD4FD8393CF (.leaf 0x23D2) (.leaf 0xFCE)) (.node 0xD510E1F0D4 (.leaf 0x1D1B4) (.leaf 0x1D8F1)))))
def nameTree_1576 : NameTree := .node 0xD51C78C1D3 (.node 0xD51C78BDD3 (.node 0xD51C78BBD3 (.node 0xD51C78BAD3 (.leaf 0x1D5AD) (.leaf 0x1D5AE)) (.node 0xD51C78BCD3 (.leaf 0x1D5AF) (.leaf 0x1D5B0))) (.node 0xD51C78BFD3 (.node 0xD51C78BED3 (.leaf 0x1D5B1) (.leaf 0x1D5B2)) (.node 0xD51C78C0D3 (.leaf 0x1D5B3) (.leaf 0x1D5B4)))) (.node 0xD51C78C5D3 (.node 0xD51C78C3D3 (.node 0xD51C78C2D3 (.leaf 0x1D5B5) (.leaf 0x1D5B6)) (.node 0xD51C78C4D3 (.leaf 0x1D5B7) (.leaf 0x1D5B8))) (.node 0xD5204F81DA (.node 0xD51F4EF4CE (.leaf 0x1D5B9) (.leaf 0x1D815)) (.node 0xD52102F7D3 (.leaf 0x2E02) (.leaf 0x1B3F))))
def nameTree_1577 : NameTree := .node 0xD51C78B9D3 (.node 0xD51C78B1D3 (.node 0xD51C78ADD3 (.node 0xD519D0DD0B (.leaf 0xFC19) (.node 0xD51C78ACD3 (.leaf 0x1F76B) (.leaf 0x1D5A0))) (.node 0xD51C78AFD3 (.node 0xD51C78AED3 (.leaf 0x1D5A1) (.leaf 0x1D5A2)) (.node 0xD51C78B0D3 (.leaf 0x1D5A3) (.leaf 0x1D5A4)))) (.node 0xD51C78B5D3 (.node 0xD51C78B3D3 (.node 0xD51C78B2D3 (.leaf 0x1D5A5) (.leaf 0x1D5A6)) (.node 0xD51C78B4D3 (.leaf 0x1D5A7) (.leaf 0x1D5A8))) (.node 0xD51C78B7D3 (.node 0xD51C78B6D3 (.leaf 0x1D5A9) (.leaf 0x1D5AA)) (.node 0xD51C78B8D3 (.leaf 0x1D5AB) (.leaf 0x1D5AC))))) (nameTree_1576)
def nameTree_1578 : NameTree := .node 0xD583AFC84E (.node 0xD57EEC1EB4 (.node 0xD572C77751 (.node 0xD56EF7E2BE (.leaf 0xF84) (.leaf 0x1D9C7)) (.node 0xD57EA774EE (.leaf 0x10132) (.leaf 0x1D9C1))) (.node 0xD583AFB44E (.node 0xD58084DEFC (.leaf 0x32CA) (.leaf 0x1BF1)) (.node 0xD583AFBC4E (.leaf 0xA06) (.leaf 0xA10)))) (.node 0xD583B3B84E (.node 0xD583B1B44E (.node 0xD583B0B44E (.leaf 0xA14) (.leaf 0xA2C)) (.node 0xD583B2B44E (.leaf 0xA1A) (.leaf 0xA26))) (.node 0xD583B5B44E (.node 0xD583B4B44E (.leaf 0xA0F) (.leaf 0xA5E)) (.node 0xD583B6B44E (.leaf 0xA17) (.leaf 0xA39))))
def nameTree_1579 : NameTree := .node 0xD55E95E2A0 (.node 0xD53BDEEB59 (.node 0xD5305938F4 (.node 0xD52C9FAA03 (.leaf 0x1D031) (.node 0xD52D4C668F (.leaf 0x38C) (.leaf 0x8E2))) (.node 0xD5329A3AC2 (.node 0xD5328DBB4A (.leaf 0x1D12B) (.leaf 0xFC96)) (.node 0xD53816C059 (.leaf 0x201E) (.leaf 0x1F7D2)))) (.node 0xD550B8C763 (.node 0xD54118004E (.node 0xD53C5FC9BD (.leaf 0xA710) (.leaf 0x21DA)) (.node 0xD542C84F02 (.leaf 0x108F2) (.leaf 0x1EE9))) (.node 0xD555ED901C (.node 0xD5539900E3 (.leaf 0x1D866) (.leaf 0x2E6)) (.node 0xD557A46986 (.leaf 0x10464) (.leaf 0x1FCB))))) (nameTree_1578)
def nameTree_1580 : NameTree := .node 0xD5D040124A (.node 0xD5ACCF0E2F (.node 0xD5A95D22EA (.node 0xD59FA73C4F (.leaf 0x258B) (.leaf 0x4B2)) (.node 0xD5AC0B62F1 (.leaf 0x1D9EA) (.leaf 0xD7D6))) (.node 0xD5BB035D74 (.node 0xD5B1DBA763 (.leaf 0x1D343) (.leaf 0x33C6)) (.node 0xD5C12E493A (.leaf 0x1EA5) (.leaf 0x228)))) (.node 0xD5EB259724 (.node 0xD5D9D32D59 (.node 0xD5D291DD58 (.leaf 0x1F912) (.leaf 0x12339)) (.node 0xD5DB791E10 (.leaf 0x1FA5) (.leaf 0x3177))) (.node 0xD60084F69E (.node 0xD5F93724D0 (.leaf 0xFC5D) (.leaf 0x702)) (.node 0xD60695374D (.leaf 0x1F450) (.leaf 0x340))))
def nameTree_1581 : NameTree := .node 0xD594C07942 (.node 0xD583BEB44E (.node 0xD583BAB44E (.node 0xD583B8B44E (.leaf 0xA08) (.node 0xD583B9B44E (.leaf 0xA1C) (.leaf 0xA15))) (.node 0xD583BCB44E (.node 0xD583BBB44E (.leaf 0xA32) (.leaf 0xA2E)) (.node 0xD583BDC24E (.leaf 0xA28) (.leaf 0xA13)))) (.node 0xD583C3C84E (.node 0xD583C1B44E (.node 0xD583C0B44E (.leaf 0xA2A) (.leaf 0xA30)) (.node 0xD583C2B44E (.leaf 0xA38) (.leaf 0xA24))) (.node 0xD583C7B44E (.node 0xD583C4B44E (.leaf 0xA0A) (.leaf 0xA35)) (.node 0xD583C8B44E (.leaf 0xA2F) (.leaf 0xA5B))))) (nameTree_1580)
def nameTree_1582 : NameTree := .node 0xD64B3F95CD (.node 0xD627F86E7A (.node 0xD61BC31AC7 (.node 0xD616748FA8 (.leaf 0x1D07A) (.node 0xD61791B6B6 (.leaf 0x218B) (.leaf 0xFC4D))) (.node 0xD622B0702D (.node 0xD61DF4944B (.leaf 0x1BCA2) (.leaf 0x1097)) (.node 0xD6270434B4 (.leaf 0x1F333) (.leaf 0x3300)))) (.node 0xD633F8FBBF (.node 0xD62EF3C0A7 (.node 0xD62C026DF1 (.leaf 0x120AD) (.leaf 0x1D889)) (.node 0xD62FF85FF5 (.leaf 0x4DEC) (.leaf 0x115B5))) (.node 0xD63CBC2090 (.node 0xD63BF5C37F (.leaf 0x30C) (.leaf 0x1F98F)) (.node 0xD63D1EDC0C (.leaf 0x1F659) (.leaf 0x1F493))))) (.node 0xD667DB91B1 (.node 0xD654A58F37 (.node 0xD64CAB1A0F (.leaf 0xA985) (.node 0xD64FEE891C (.leaf 0x1B45) (.leaf 0x10465))) (.node 0xD6603B9EAC (.node 0xD65FDA450D (.leaf 0x1010D) (.leaf 0xD7CE)) (.node 0xD667DB8DB1 (.leaf 0x1E8D5) (.leaf 0x16F55)))) (.node 0xD667DF95B1 (.node 0xD667DB9AB1 (.node 0xD667DB95B1 (.leaf 0x16F73) (.leaf 0x16F79)) (.node 0xD667DBA1B1 (.leaf 0x16F57) (.leaf 0x16F7B))) (.node 0xD667DF9EB1 (.node 0xD667DF9AB1 (.leaf 0x16F7A) (.leaf 0x16F5E)) (.node 0xD667E38DB1 (.leaf 0x16F77) (.leaf 0x16F62)))))
def nameTree_1583 : NameTree := .node 0xD6900AB9AD (.node 0xD68869A656 (.node 0xD68869A551 (.node 0xD68869A451 (.leaf 0x1F96) (.leaf 0x1B0A7)) (.node 0xD68869A556 (.leaf 0x1B0A8) (.leaf 0x1B020))) (.node 0xD68891C918 (.node 0xD68883BA56 (.leaf 0x1B021) (.leaf 0x1B022)) (.node 0xD68EF41D66 (.leaf 0x1B0E2) (.leaf 0x2A6F)))) (.node 0xD6A10B3311 (.node 0xD6A10B3111 (.node 0xD6A10B3011 (.leaf 0x1F326) (.leaf 0xE0153)) (.node 0xD6A10B3211 (.leaf 0xE0154) (.leaf 0xE0155))) (.node 0xD6A10B3511 (.node 0xD6A10B3411 (.leaf 0xE0156) (.leaf 0xE0157)) (.node 0xD6A10B3611 (.leaf 0xE0158) (.leaf 0xE0159))))
def nameTree_1584 : NameTree := .node 0xD6837460BC (.node 0xD667EF8DB1 (.node 0xD667E3A1B1 (.node 0xD667E395B1 (.leaf 0x16F66) (.node 0xD667E39BB1 (.leaf 0x16F67) (.leaf 0x16F65))) (.node 0xD667E99BB1 (.node 0xD667E893B1 (.leaf 0x16F68) (.leaf 0x16F7E)) (.node 0xD667E9A1B1 (.leaf 0x16F5A) (.leaf 0x16F7C)))) (.node 0xD66B86CC0B (.node 0xD667F19BB1 (.node 0xD667EFA1B1 (.leaf 0x16F6B) (.leaf 0x16F6E)) (.node 0xD667F395B1 (.leaf 0x16F5B) (.leaf 0x16F72))) (.node 0xD67D96326D (.node 0xD672E4857D (.leaf 0x1426) (.leaf 0x1F91D)) (.node 0xD68191AC83 (.leaf 0x1DA36) (.leaf 0x11F3))))) (nameTree_1583)
def nameTree_1585 : NameTree := .node 0xD6A10E3011 (.node 0xD6A10D3611 (.node 0xD6A10D3411 (.node 0xD6A10D3311 (.leaf 0xE0169) (.leaf 0xE016A)) (.node 0xD6A10D3511 (.leaf 0xE016B) (.leaf 0xE016C))) (.node 0xD6A10D3811 (.node 0xD6A10D3711 (.leaf 0xE016D) (.leaf 0xE016E)) (.node 0xD6A10D3911 (.leaf 0xE016F) (.leaf 0xE0170)))) (.node 0xD6A10E3411 (.node 0xD6A10E3211 (.node 0xD6A10E3111 (.leaf 0xE0171) (.leaf 0xE0172)) (.node 0xD6A10E3311 (.leaf 0xE0173) (.leaf 0xE0174))) (.node 0xD6A10E3611 (.node 0xD6A10E3511 (.leaf 0xE0175) (.leaf 0xE0176)) (.node 0xD6A10E3711 (.leaf 0xE0177) (.leaf 0xE0178))))
def nameTree_1586 : NameTree := .node 0xD6A10D3211 (.node 0xD6A10C3411 (.node 0xD6A10C3011 (.node 0xD6A10B3811 (.leaf 0xE015A) (.node 0xD6A10B3911 (.leaf 0xE015B) (.leaf 0xE015C))) (.node 0xD6A10C3211 (.node 0xD6A10C3111 (.leaf 0xE015D) (.leaf 0xE015E)) (.node 0xD6A10C3311 (.leaf 0xE015F) (.leaf 0xE0160)))) (.node 0xD6A10C3811 (.node 0xD6A10C3611 (.node 0xD6A10C3511 (.leaf 0xE0161) (.leaf 0xE0162)) (.node 0xD6A10C3711 (.leaf 0xE0163) (.leaf 0xE0164))) (.node 0xD6A10D3011 (.node 0xD6A10C3911 (.leaf 0xE0165) (.leaf 0xE0166)) (.node 0xD6A10D3111 (.leaf 0xE0167) (.leaf 0xE0168))))) (nameTree_1585)
def nameTree_1587 : NameTree := .node 0xD6A1113111 (.node 0xD6A1103711 (.node 0xD6A1103511 (.node 0xD6A1103411 (.leaf 0xE0188) (.leaf 0xE0189)) (.node 0xD6A1103611 (.leaf 0xE018A) (.leaf 0xE018B))) (.node 0xD6A1103911 (.node 0xD6A1103811 (.leaf 0xE018C) (.leaf 0xE018D)) (.node 0xD6A1113011 (.leaf 0xE018E) (.leaf 0xE018F)))) (.node 0xD6A1113511 (.node 0xD6A1113311 (.node 0xD6A1113211 (.leaf 0xE0190) (.leaf 0xE0191)) (.node 0xD6A1113411 (.leaf 0xE0192) (.leaf 0xE0193))) (.node 0xD6A1113711 (.node 0xD6A1113611 (.leaf 0xE0194) (.leaf 0xE0195)) (.node 0xD6A1113811 (.leaf 0xE0196) (.leaf 0xE0197))))
def nameTree_1588 : NameTree := .node 0xD6A1103311 (.node 0xD6A10F3511 (.node 0xD6A10F3111 (.node 0xD6A10E3911 (.leaf 0xE0179) (.node 0xD6A10F3011 (.leaf 0xE017A) (.leaf 0xE017B))) (.node 0xD6A10F3311 (.node 0xD6A10F3211 (.leaf 0xE017C) (.leaf 0xE017D)) (.node 0xD6A10F3411 (.leaf 0xE017E) (.leaf 0xE017F)))) (.node 0xD6A10F3911 (.node 0xD6A10F3711 (.node 0xD6A10F3611 (.leaf 0xE0180) (.leaf 0xE0181)) (.node 0xD6A10F3811 (.leaf 0xE0182) (.leaf 0xE0183))) (.node 0xD6A1103111 (.node 0xD6A1103011 (.leaf 0xE0184) (.leaf 0xE0185)) (.node 0xD6A1103211 (.leaf 0xE0186) (.leaf 0xE0187))))) (nameTree_1587)
def nameTree_1589 : NameTree := .node 0xD6A1133411 (.node 0xD6A1123611 (.node 0xD6A1123211 (.node 0xD6A1123011 (.leaf 0xE0198) (.node 0xD6A1123111 (.leaf 0xE0199) (.leaf 0xE019A))) (.node 0xD6A1123411 (.node 0xD6A1123311 (.leaf 0xE019B) (.leaf 0xE019C)) (.node 0xD6A1123511 (.leaf 0xE019D) (.leaf 0xE019E)))) (.node 0xD6A1133011 (.node 0xD6A1123811 (.node 0xD6A1123711 (.leaf 0xE019F) (.leaf 0xE01A0)) (.node 0xD6A1123911 (.leaf 0xE01A1) (.leaf 0xE01A2))) (.node 0xD6A1133211 (.node 0xD6A1133111 (.leaf 0xE01A3) (.leaf 0xE01A4)) (.node 0xD6A1133311 (.leaf 0xE01A5) (.leaf 0xE01A6))))) (.node 0xD6A1143111 (.node 0xD6A1133711 (.node 0xD6A1133511 (.leaf 0xE01A7) (.node 0xD6A1133611 (.leaf 0xE01A8) (.leaf 0xE01A9))) (.node 0xD6A1133911 (.node 0xD6A1133811 (.leaf 0xE01AA) (.leaf 0xE01AB)) (.node 0xD6A1143011 (.leaf 0xE01AC) (.leaf 0xE01AD)))) (.node 0xD6A1143511 (.node 0xD6A1143311 (.node 0xD6A1143211 (.leaf 0xE01AE) (.leaf 0xE01AF)) (.node 0xD6A1143411 (.leaf 0xE01B0) (.leaf 0xE01B1))) (.node 0xD6A1143711 (.node 0xD6A1143611 (.leaf 0xE01B2) (.leaf 0xE01B3)) (.node 0xD6A1143811 (.leaf 0xE01B4) (.leaf 0xE01B5)))))
def nameTree_1590 : NameTree := .node 0xD6A20D3211 (.node 0xD6A20C3811 (.node 0xD6A20C3611 (.node 0xD6A20C3511 (.leaf 0xE01C5) (.leaf 0xE01C6)) (.node 0xD6A20C3711 (.leaf 0xE01C7) (.leaf 0xE01C8))) (.node 0xD6A20D3011 (.node 0xD6A20C3911 (.leaf 0xE01C9) (.leaf 0xE01CA)) (.node 0xD6A20D3111 (.leaf 0xE01CB) (.leaf 0xE01CC)))) (.node 0xD6A20D3611 (.node 0xD6A20D3411 (.node 0xD6A20D3311 (.leaf 0xE01CD) (.leaf 0xE01CE)) (.node 0xD6A20D3511 (.leaf 0xE01CF) (.leaf 0xE01D0))) (.node 0xD6A20D3811 (.node 0xD6A20D3711 (.leaf 0xE01D1) (.leaf 0xE01D2)) (.node 0xD6A20D3911 (.leaf 0xE01D3) (.leaf 0xE01D4))))
def nameTree_1591 : NameTree := .node 0xD6A20C3411 (.node 0xD6A20B3611 (.node 0xD6A20B3211 (.node 0xD6A20B3011 (.leaf 0xE01B6) (.node 0xD6A20B3111 (.leaf 0xE01B7) (.leaf 0xE01B8))) (.node 0xD6A20B3411 (.node 0xD6A20B3311 (.leaf 0xE01B9) (.leaf 0xE01BA)) (.node 0xD6A20B3511 (.leaf 0xE01BB) (.leaf 0xE01BC)))) (.node 0xD6A20C3011 (.node 0xD6A20B3811 (.node 0xD6A20B3711 (.leaf 0xE01BD) (.leaf 0xE01BE)) (.node 0xD6A20B3911 (.leaf 0xE01BF) (.leaf 0xE01C0))) (.node 0xD6A20C3211 (.node 0xD6A20C3111 (.leaf 0xE01C1) (.leaf 0xE01C2)) (.node 0xD6A20C3311 (.leaf 0xE01C3) (.leaf 0xE01C4))))) (nameTree_1590)
def nameTree_1592 : NameTree := .node 0xD6A2103311 (.node 0xD6A20F3911 (.node 0xD6A20F3711 (.node 0xD6A20F3611 (.leaf 0xE01E4) (.leaf 0xE01E5)) (.node 0xD6A20F3811 (.leaf 0xE01E6) (.leaf 0xE01E7))) (.node 0xD6A2103111 (.node 0xD6A2103011 (.leaf 0xE01E8) (.leaf 0xE01E9)) (.node 0xD6A2103211 (.leaf 0xE01EA) (.leaf 0xE01EB)))) (.node 0xD6A71F63FF (.node 0xD6A2103511 (.node 0xD6A2103411 (.leaf 0xE01EC) (.leaf 0xE01ED)) (.node 0xD6A2103611 (.leaf 0xE01EE) (.leaf 0xE01EF))) (.node 0xD6B8739A6D (.node 0xD6A8226E46 (.leaf 0x253D) (.leaf 0x169E8)) (.node 0xD6B958601A (.leaf 0xFF9E) (.leaf 0x12396))))
def nameTree_1593 : NameTree := .node 0xD6A20F3511 (.node 0xD6A20E3711 (.node 0xD6A20E3311 (.node 0xD6A20E3111 (.leaf 0xE01D5) (.node 0xD6A20E3211 (.leaf 0xE01D6) (.leaf 0xE01D7))) (.node 0xD6A20E3511 (.node 0xD6A20E3411 (.leaf 0xE01D8) (.leaf 0xE01D9)) (.node 0xD6A20E3611 (.leaf 0xE01DA) (.leaf 0xE01DB)))) (.node 0xD6A20F3111 (.node 0xD6A20E3911 (.node 0xD6A20E3811 (.leaf 0xE01DC) (.leaf 0xE01DD)) (.node 0xD6A20F3011 (.leaf 0xE01DE) (.leaf 0xE01DF))) (.node 0xD6A20F3311 (.node 0xD6A20F3211 (.leaf 0xE01E0) (.leaf 0xE01E1)) (.node 0xD6A20F3411 (.leaf 0xE01E2) (.leaf 0xE01E3))))) (nameTree_1592)
def nameTree_1594 : NameTree := .node 0xD709E0E6A2 (.node 0xD709E0DFA2 (.node 0xD709E0DDA2 (.node 0xD709D50B93 (.leaf 0x17E9) (.leaf 0x29A7)) (.node 0xD709E0DEA2 (.leaf 0x1C2D) (.leaf 0x1C2F))) (.node 0xD709E0E2A2 (.node 0xD709E0E0A2 (.leaf 0x1C2E) (.leaf 0x1C30)) (.node 0xD709E0E4A2 (.leaf 0x1C31) (.leaf 0x1C32)))) (.node 0xD716188A54 (.node 0xD714273866 (.node 0xD70C21E80B (.leaf 0x1C33) (.leaf 0x4DC7)) (.node 0xD714F14012 (.leaf 0x2F34) (.leaf 0xE37))) (.node 0xD71C1A7E1D (.node 0xD7172EA865 (.leaf 0x1D175) (.leaf 0x3179)) (.node 0xD71C297C1D (.leaf 0xEC8) (.leaf 0xECA))))
def nameTree_1595 : NameTree := .node 0xD708D5282F (.node 0xD6DA0389A7 (.node 0xD6C71C9498 (.node 0xD6BAE31DBE (.leaf 0x2245) (.node 0xD6C041C06C (.leaf 0xFD6E) (.leaf 0x259D))) (.node 0xD6CE8D17C1 (.node 0xD6C7F4A8CB (.leaf 0x2CD1) (.leaf 0x372)) (.node 0xD6D77219E4 (.leaf 0x10753) (.leaf 0x312)))) (.node 0xD6EDFF48B7 (.node 0xD6E3799A34 (.node 0xD6E1A248AB (.leaf 0x1F3A2) (.leaf 0x77D)) (.node 0xD6E5FF43BC (.leaf 0x1D4C) (.leaf 0x1683))) (.node 0xD6EE014122 (.node 0xD6EE013C60 (.leaf 0x168A) (.leaf 0x1681)) (.node 0xD6F7B78685 (.leaf 0x169A) (.leaf 0x295E))))) (nameTree_1594)
def nameTree_1596 : NameTree := .node 0xD74CB05107 (.node 0xD73A11064E (.node 0xD72A1626CB (.node 0xD72078B61F (.leaf 0xAA7A) (.node 0xD72078BC1F (.leaf 0x111BA) (.leaf 0x111B8))) (.node 0xD735EF18C7 (.node 0xD734860232 (.leaf 0x2C70) (.leaf 0x2632)) (.node 0xD737EED96F (.leaf 0x230A) (.leaf 0x2690)))) (.node 0xD74CB0424A (.node 0xD742D318A0 (.node 0xD73AAB7BCF (.leaf 0x108F4) (.leaf 0xFE83)) (.node 0xD74786B1B9 (.leaf 0xFE18) (.leaf 0x252B))) (.node 0xD74CB04FB0 (.node 0xD74CB048FD (.leaf 0x3208) (.leaf 0x320D)) (.node 0xD74CB05063 (.leaf 0x3204) (.leaf 0x3203))))) (.node 0xD75E18505B (.node 0xD74FBE9D73 (.node 0xD74CB053B5 (.leaf 0x3201) (.node 0xD74FBE9973 (.leaf 0x3205) (.leaf 0xD46))) (.node 0xD74FBEA973 (.node 0xD74FBEA373 (.leaf 0xD3F) (.leaf 0xD4A)) (.node 0xD75D0D96BA (.leaf 0xD41) (.leaf 0x20E1)))) (.node 0xD76BE2A384 (.node 0xD768B50828 (.node 0xD7602B91EA (.leaf 0x1F8A6) (.leaf 0x38E)) (.node 0xD7691FBFF3 (.leaf 0x741) (.leaf 0x3369))) (.node 0xD76F1C0C0D (.node 0xD76F16060D (.leaf 0xA92D) (.leaf 0xCE3)) (.node 0xD7718DBD4E (.leaf 0xCC4) (.leaf 0x25CD)))))
def nameTree_1597 : NameTree := .node 0xD7ECDE5B0F (.node 0xD7E0478088 (.node 0xD7D87C8478 (.node 0xD7D850D09B (.leaf 0x1D125) (.leaf 0x1D126)) (.node 0xD7DE9CD52A (.leaf 0x1F3A7) (.leaf 0xAB5F))) (.node 0xD7E1C49F96 (.node 0xD7E1878F5F (.leaf 0x1D0CD) (.leaf 0x2F22)) (.node 0xD7E599282D (.leaf 0x25B5) (.leaf 0x11A98)))) (.node 0xD80152BFA4 (.node 0xD7F26A15F7 (.node 0xD7EF857E2E (.leaf 0xC79) (.leaf 0x1D090)) (.node 0xD7FC125DC1 (.leaf 0x16EE) (.leaf 0x258E))) (.node 0xD80152C6A4 (.node 0xD80152C3A4 (.leaf 0x2090) (.leaf 0x2091)) (.node 0xD80152C7A4 (.leaf 0x2095) (.leaf 0x1D62))))
def nameTree_1598 : NameTree := .node 0xD7D850CF9B (.node 0xD7A0AAE6EC (.node 0xD797AB4894 (.node 0xD77C55AC9F (.leaf 0x1EDF) (.node 0xD78C6AFE82 (.leaf 0x11659) (.leaf 0x100C6))) (.node 0xD79889AA28 (.node 0xD79846E42A (.leaf 0x2370) (.leaf 0x1DAE)) (.node 0xD79FFF0E70 (.leaf 0x1F102) (.leaf 0xCE)))) (.node 0xD7BEFADAC9 (.node 0xD7B033913E (.node 0xD7A9994AF6 (.leaf 0x1D974) (.leaf 0xA64F)) (.node 0xD7B32FEBBD (.leaf 0x4DE7) (.leaf 0x2CD6))) (.node 0xD7D2146F7C (.node 0xD7C83F5C85 (.leaf 0x21CB) (.leaf 0x2F21)) (.node 0xD7D54C1138 (.leaf 0xFEA5) (.leaf 0xA4DE))))) (nameTree_1597)
def nameTree_1599 : NameTree := .node 0xD8073335E0 (.node 0xD8073331E0 (.node 0xD807332FE0 (.node 0xD806784593 (.leaf 0x722) (.leaf 0x17D2)) (.node 0xD8073330E0 (.leaf 0x1D434) (.leaf 0x1D435))) (.node 0xD8073333E0 (.node 0xD8073332E0 (.leaf 0x1D436) (.leaf 0x1D437)) (.node 0xD8073334E0 (.leaf 0x1D438) (.leaf 0x1D439)))) (.node 0xD8073339E0 (.node 0xD8073337E0 (.node 0xD8073336E0 (.leaf 0x1D43A) (.leaf 0x1D43B)) (.node 0xD8073338E0 (.leaf 0x1D43C) (.leaf 0x1D43D))) (.node 0xD807333BE0 (.node 0xD807333AE0 (.leaf 0x1D43E) (.leaf 0x1D43F)) (.node 0xD807333CE0 (.leaf 0x1D440) (.leaf 0x1D441))))
def nameTree_1600 : NameTree := .node 0xD8052B4AB8 (.node 0xD80152D0A4 (.node 0xD80152CBA4 (.node 0xD80152C9A4 (.leaf 0x2C7C) (.node 0xD80152CAA4 (.leaf 0x2096) (.leaf 0x2097))) (.node 0xD80152CDA4 (.node 0xD80152CCA4 (.leaf 0x2098) (.leaf 0x2099)) (.node 0xD80152CEA4 (.leaf 0x2092) (.leaf 0x209A)))) (.node 0xD80152D4A4 (.node 0xD80152D2A4 (.node 0xD80152D1A4 (.leaf 0x1D63) (.leaf 0x209B)) (.node 0xD80152D3A4 (.leaf 0x209C) (.leaf 0x1D64))) (.node 0xD8036B57AC (.node 0xD80152D6A4 (.leaf 0x1D65) (.leaf 0x2093)) (.node 0xD8041F49B8 (.leaf 0x17CC) (.leaf 0x721))))) (nameTree_1599)
def nameTree_1601 : NameTree := .node 0xD81A06133D (.node 0xD80F5C3AD6 (.node 0xD80E1753B8 (.node 0xD80BBF5730 (.leaf 0x72C) (.leaf 0x222C)) (.node 0xD80EC3D458 (.leaf 0x718) (.leaf 0x1F591))) (.node 0xD8120BA19E (.node 0xD8107067E0 (.leaf 0xA9BF) (.leaf 0x200F)) (.node 0xD8178A15AF (.leaf 0x502) (.leaf 0x29B6)))) (.node 0xD81ED63F3C (.node 0xD81A0BA19E (.node 0xD81A06193D (.leaf 0xA88A) (.leaf 0xA888)) (.node 0xD81C0BA19E (.leaf 0x508) (.leaf 0x50A))) (.node 0xD8210BA19E (.node 0xD81F3E88C7 (.leaf 0x2135) (.leaf 0x10187)) (.node 0xD8220BA19E (.leaf 0x50C) (.leaf 0x50E))))
def nameTree_1602 : NameTree := .node 0xD80B1753B8 (.node 0xD8073344E0 (.node 0xD8073340E0 (.node 0xD807333EE0 (.leaf 0x1D442) (.node 0xD807333FE0 (.leaf 0x1D443) (.leaf 0x1D444))) (.node 0xD8073342E0 (.node 0xD8073341E0 (.leaf 0x1D445) (.leaf 0x1D446)) (.node 0xD8073343E0 (.leaf 0x1D447) (.leaf 0x1D448)))) (.node 0xD8073348E0 (.node 0xD8073346E0 (.node 0xD8073345E0 (.leaf 0x1D449) (.leaf 0x1D44A)) (.node 0xD8073347E0 (.leaf 0x1D44B) (.leaf 0x1D44C))) (.node 0xD807FA426A (.node 0xD807B51C76 (.leaf 0x1D44D) (.leaf 0x1D324)) (.node 0xD808BCD833 (.leaf 0xFE23) (.leaf 0x1D345))))) (nameTree_1601)
def nameTree_1603 : NameTree := .node 0xD85E115649 (.node 0xD83F6C5C4F (.node 0xD82E2FA87B (.node 0xD826D154D2 (.leaf 0x19D9) (.node 0xD8280BA19E (.leaf 0xFBDF) (.leaf 0x504))) (.node 0xD833BFD697 (.node 0xD831A27E78 (.leaf 0x1D80B) (.leaf 0x1D07E)) (.node 0xD8371C004E (.leaf 0x1F6AC) (.leaf 0x108E8)))) (.node 0xD850B8C463 (.node 0xD84B27B544 (.node 0xD83F7BA60B (.leaf 0x1D0A8) (.leaf 0x2998)) (.node 0xD84DCAC463 (.leaf 0x2EA) (.leaf 0x1D903))) (.node 0xD859B0A59F (.node 0xD855FB891C (.leaf 0x1D85A) (.leaf 0x10475)) (.node 0xD85A5DD7FD (.leaf 0x1F545) (.leaf 0x20DA))))) (.node 0xD8759AC11E (.node 0xD86842C538 (.node 0xD8601A4482 (.leaf 0x96D) (.node 0xD8659E8EF3 (.leaf 0x2ABB) (.leaf 0x3147))) (.node 0xD873B9E705 (.node 0xD872AFCC07 (.leaf 0x290F) (.leaf 0x1D04E)) (.node 0xD873DCB810 (.leaf 0xED0) (.leaf 0x2AF2)))) (.node 0xD8844FA5F9 (.node 0xD87C4FA5F9 (.node 0xD879647D14 (.leaf 0x2CF9) (.leaf 0x1F36B)) (.node 0xD87E095802 (.leaf 0x31CC) (.leaf 0x1D92))) (.node 0xD88652AEF9 (.node 0xD8864FA5F9 (.leaf 0x31E0) (.leaf 0x31C8)) (.node 0xD88652B8F9 (.leaf 0x31CB) (.leaf 0x31CE)))))
def nameTree_1604 : NameTree := .node 0xD89B8D84D1 (.node 0xD89B8D80D1 (.node 0xD89B8D7DD1 (.node 0xD89B8D7BD1 (.leaf 0x2E1) (.leaf 0x1D50)) (.node 0xD89B8D7ED1 (.leaf 0x1D52) (.leaf 0x1D56))) (.node 0xD89B8D82D1 (.node 0xD89B8D81D1 (.leaf 0x2B3) (.leaf 0x2E2)) (.node 0xD89B8D83D1 (.leaf 0x1D57) (.leaf 0x1D58)))) (.node 0xD89B8D88D1 (.node 0xD89B8D86D1 (.node 0xD89B8D85D1 (.leaf 0x1D5B) (.leaf 0x2B7)) (.node 0xD89B8D87D1 (.leaf 0x2E3) (.leaf 0x2B8))) (.node 0xD8A1AEC8C2 (.node 0xD89D1C188D (.leaf 0x1DBB) (.leaf 0x109F5)) (.node 0xD8A50AA8A7 (.leaf 0x1F2B) (.leaf 0x23C5))))
def nameTree_1605 : NameTree := .node 0xD89B8D7AD1 (.node 0xD89B8D71D1 (.node 0xD8958F8815 (.node 0xD88ED19789 (.leaf 0x274E) (.node 0xD894D0A489 (.leaf 0xB6B) (.leaf 0xB6A))) (.node 0xD89B8D6FD1 (.node 0xD897836C4C (.leaf 0x255E) (.leaf 0xC7D)) (.node 0xD89B8D70D1 (.leaf 0x1D43) (.leaf 0x1D47)))) (.node 0xD89B8D75D1 (.node 0xD89B8D73D1 (.node 0xD89B8D72D1 (.leaf 0x1D9C) (.leaf 0x1D48)) (.node 0xD89B8D74D1 (.leaf 0x1D49) (.leaf 0x1DA0))) (.node 0xD89B8D78D1 (.node 0xD89B8D76D1 (.leaf 0x1D4D) (.leaf 0x2B0)) (.node 0xD89B8D79D1 (.leaf 0x2B2) (.leaf 0x1D4F))))) (nameTree_1604)
def nameTree_1606 : NameTree := .node 0xD8C68A352B (.node 0xD8C58A352B (.node 0xD8C48A1928 (.node 0xD8C38A352B (.leaf 0x1870) (.leaf 0x1140F)) (.node 0xD8C48A352B (.leaf 0x1867) (.leaf 0x1142F))) (.node 0xD8C6820FE8 (.node 0xD8C5951928 (.leaf 0x1142A) (.leaf 0x186E)) (.node 0xD8C689352B (.leaf 0x1D852) (.leaf 0x11412)))) (.node 0xD8C88DA3F3 (.node 0xD8C69B352B (.node 0xD8C690352B (.leaf 0x11424) (.leaf 0x1141E)) (.node 0xD8C88A352B (.leaf 0x11418) (.leaf 0x11426))) (.node 0xD8CA8A352B (.node 0xD8C9EDA3F3 (.leaf 0xFFAF) (.leaf 0xFFAE)) (.node 0xD8CAA84E50 (.leaf 0x1142D) (.leaf 0x3198))))
def nameTree_1607 : NameTree := .node 0xD8C3831928 (.node 0xD8BA8A352B (.node 0xD8B48A1928 (.node 0xD8AF1C7AE6 (.leaf 0x226D) (.node 0xD8B2901F28 (.leaf 0x29C2) (.leaf 0x1862))) (.node 0xD8B8831928 (.node 0xD8B63BC3F0 (.leaf 0x1871) (.leaf 0x26AD)) (.node 0xD8B9831928 (.leaf 0x186C) (.leaf 0x186D)))) (.node 0xD8BF8A352B (.node 0xD8BC86352B (.node 0xD8BB8A352B (.leaf 0x11428) (.leaf 0x11415)) (.node 0xD8BC8A352B (.leaf 0x1141C) (.leaf 0x11422))) (.node 0xD8C28A352B (.node 0xD8BF92261B (.leaf 0x11411) (.leaf 0x1163D)) (.node 0xD8C331C503 (.leaf 0x11417) (.leaf 0x11CF))))) (nameTree_1606)
def nameTree_1608 : NameTree := .node 0xD8F6FBC0AC (.node 0xD8EA6428FF (.node 0xD8E3646875 (.node 0xD8DDB5A4FC (.leaf 0xFB44) (.leaf 0x1C88)) (.node 0xD8E453A5D1 (.leaf 0x1E95E) (.leaf 0x276E))) (.node 0xD8F35FFE02 (.node 0xD8F06428FF (.leaf 0xA615) (.leaf 0xA61D)) (.node 0xD8F55E1202 (.leaf 0x246B) (.leaf 0x2473)))) (.node 0xD9031DCEBF (.node 0xD8FD56631B (.node 0xD8FD49EA45 (.leaf 0xA4C4) (.leaf 0x246A)) (.node 0xD8FEDC897E (.leaf 0x2623) (.leaf 0x1944))) (.node 0xD9083686E8 (.node 0xD906D21A3A (.leaf 0x1F773) (.leaf 0x1D81A)) (.node 0xD90846D336 (.leaf 0x1F6C7) (.leaf 0x42C))))
def nameTree_1609 : NameTree := .node 0xD8DC1E89F4 (.node 0xD8D2E48151 (.node 0xD8CC8A352B (.node 0xD8CB8A352B (.leaf 0x1872) (.node 0xD8CB95352B (.leaf 0x11431) (.leaf 0x11432))) (.node 0xD8CEE96E51 (.node 0xD8CC96352B (.leaf 0x11420) (.leaf 0x1141A)) (.node 0xD8D295D9B2 (.leaf 0x118E1) (.leaf 0x2520)))) (.node 0xD8D3F54A97 (.node 0xD8D3F54297 (.node 0xD8D3F27851 (.leaf 0x118E6) (.leaf 0x118E2)) (.node 0xD8D3F54697 (.leaf 0x905) (.leaf 0x90F))) (.node 0xD8D3F55697 (.node 0xD8D3F55097 (.leaf 0x907) (.leaf 0x913)) (.node 0xD8D68B8F34 (.leaf 0x909) (.leaf 0xD7FA))))) (nameTree_1608)
def nameTree_1610 : NameTree := .node 0xD92F9A9D7A (.node 0xD912EF3A76 (.node 0xD90EA6CA8E (.node 0xD90B9AD08E (.leaf 0x1F847) (.node 0xD90D94CA8E (.leaf 0x184A) (.leaf 0x1852))) (.node 0xD9118DCA8E (.node 0xD910531C80 (.leaf 0x185C) (.leaf 0x1D350)) (.node 0xD9128DCA8E (.leaf 0x1858) (.leaf 0x1859)))) (.node 0xD91B7F53D3 (.node 0xD91895CA8E (.node 0xD91495CA8E (.leaf 0x1D750) (.leaf 0x185A)) (.node 0xD919F48BA2 (.leaf 0x185B) (.leaf 0x1093))) (.node 0xD91E9FCA8E (.node 0xD91E462D67 (.leaf 0x309E) (.leaf 0x1B0B)) (.node 0xD9279C9EA7 (.leaf 0x1854) (.leaf 0x1F48))))) (.node 0xD9355A3A21 (.node 0xD9320633CA (.node 0xD9320630CA (.leaf 0x2B80) (.node 0xD9320632CA (.leaf 0xA779) (.leaf 0xA77B))) (.node 0xD932063FCA (.node 0xD932063ECA (.leaf 0xA77D) (.leaf 0xA782)) (.node 0xD9320640CA (.leaf 0xA784) (.leaf 0xA786)))) (.node 0xD93F7011BE (.node 0xD939B5EDCF (.node 0xD935BADACF (.leaf 0x1C7E) (.leaf 0x116C1)) (.node 0xD93AC3E4CF (.leaf 0x116C6) (.leaf 0x116C2))) (.node 0xD94154A468 (.node 0xD93F8147A3 (.leaf 0x1F50F) (.leaf 0xFBE)) (.node 0xD943AC7309 (.leaf 0xA659) (.leaf 0x11237)))))
def nameTree_1611 : NameTree := .node 0xD993F28AAA (.node 0xD98BC06624 (.node 0xD98713E626 (.node 0xD983DC6DA7 (.leaf 0x2011) (.leaf 0x1D034)) (.node 0xD987C06624 (.leaf 0xA72C) (.leaf 0x7B1))) (.node 0xD992C06624 (.node 0xD9924D2E11 (.leaf 0x783) (.leaf 0x1D0D4)) (.node 0xD993C06624 (.leaf 0x794) (.leaf 0x79C)))) (.node 0xD99F27093A (.node 0xD999B11DEA (.node 0xD9954359AF (.leaf 0x1F6BC) (.leaf 0xA60F)) (.node 0xD999CFFD64 (.leaf 0x12405) (.leaf 0x100C7))) (.node 0xD9B2F95A8F (.node 0xD9B1EFF5BA (.leaf 0xA8B4) (.leaf 0x276C)) (.node 0xD9B823B9FB (.leaf 0xA67A) (.leaf 0x4C1))))
def nameTree_1612 : NameTree := .node 0xD982311EC9 (.node 0xD958B80E19 (.node 0xD94C85E2A3 (.node 0xD94BE6941C (.leaf 0x1226C) (.node 0xD94C2406BA (.leaf 0x10450) (.leaf 0x16BC))) (.node 0xD950F83880 (.node 0xD950A5868E (.leaf 0xABDF) (.leaf 0x10109)) (.node 0xD95645F572 (.leaf 0x2027) (.leaf 0x11C3F)))) (.node 0xD96A68462B (.node 0xD960A58E24 (.node 0xD95B626614 (.leaf 0x1F486) (.leaf 0x226F)) (.node 0xD9671D9682 (.leaf 0x1D310) (.leaf 0x2ABC))) (.node 0xD97BC06624 (.node 0xD970D77E3B (.leaf 0x25AC) (.leaf 0x1159B)) (.node 0xD981C06624 (.leaf 0x784) (.leaf 0x780))))) (nameTree_1611)
def nameTree_1613 : NameTree := .node 0xDA1A9D2D67 (.node 0xDA1782C18A (.node 0xDA10EE67E2 (.node 0xDA0FE070E2 (.leaf 0x1098) (.leaf 0x1D365)) (.node 0xDA1781C18A (.leaf 0x1D361) (.leaf 0x1D79B))) (.node 0xDA178CB58A (.node 0xDA1784B58A (.leaf 0x1D79C) (.leaf 0x1D79F)) (.node 0xDA1A942D67 (.leaf 0x1D79D) (.leaf 0x1B30)))) (.node 0xDA2C8E6F57 (.node 0xDA1D9A37F0 (.node 0xDA1AE8D221 (.leaf 0x1B31) (.leaf 0x466)) (.node 0xDA1F5FD703 (.leaf 0x1017E) (.leaf 0x29B2))) (.node 0xDA2FEB472B (.node 0xDA2F868071 (.leaf 0x22D7) (.leaf 0x1089C)) (.node 0xDA30F8E728 (.leaf 0x1D919) (.leaf 0x1F876))))
def nameTree_1614 : NameTree := .node 0xDA0EF79589 (.node 0xD9E6E6A640 (.node 0xD9D35DB36B (.node 0xD9CCEDB175 (.leaf 0x20ED) (.node 0xD9D00E7A99 (.leaf 0xFEB9) (.leaf 0x121E6))) (.node 0xD9E07BC988 (.node 0xD9DA663B1A (.leaf 0x317A) (.leaf 0x1F5C1)) (.node 0xD9E31406EF (.leaf 0x118E0) (.leaf 0x384)))) (.node 0xD9FC2925A2 (.node 0xD9F798D7C3 (.node 0xD9F4E21997 (.leaf 0xFB9B) (.leaf 0x1F816)) (.node 0xD9F7D0151D (.leaf 0xA907) (.leaf 0x1F592))) (.node 0xDA03A3D7DC (.node 0xDA002529B6 (.leaf 0x1EE7B) (.leaf 0x1EE74)) (.node 0xDA0BE55DE2 (.leaf 0x1D349) (.leaf 0x1D360))))) (nameTree_1613)
def nameTree_1615 : NameTree := .node 0xDA8F0C36BE (.node 0xDA8885B704 (.node 0xDA8780119A (.node 0xDA86CA2C57 (.leaf 0x2506) (.leaf 0x6DD)) (.node 0xDA8883C55B (.leaf 0x2B55) (.leaf 0x1B098))) (.node 0xDA894B265C (.node 0xDA88935EBE (.leaf 0x1B0D6) (.leaf 0xFE7E)) (.node 0xDA89EDFE88 (.leaf 0x1CE0) (.leaf 0x1F60A)))) (.node 0xDA9907B0B5 (.node 0xDA9807B0B5 (.node 0xDA9707B0B5 (.leaf 0x3146) (.leaf 0x1116B)) (.node 0xDA9903B0B5 (.leaf 0x1115A) (.leaf 0x11160))) (.node 0xDA9F07B0B5 (.node 0xDA9C07B0B5 (.leaf 0x11166) (.leaf 0x11158)) (.node 0xDAA007B0B5 (.leaf 0x1115C) (.leaf 0x11156))))
def nameTree_1616 : NameTree := .node 0xDA82D82928 (.node 0xDA45A89075 (.node 0xDA3A4A4DF4 (.node 0xDA372DF98F (.leaf 0x120D1) (.node 0xDA3897BB79 (.leaf 0x1D80A) (.leaf 0x8A8))) (.node 0xDA416F22CE (.node 0xDA3C737229 (.leaf 0x25C4) (.leaf 0x6B9)) (.node 0xDA44B495CC (.leaf 0xA96E) (.leaf 0x10114)))) (.node 0xDA592C0943 (.node 0xDA53C6BB63 (.node 0xDA4827594B (.leaf 0x1010E) (.leaf 0x5E6)) (.node 0xDA56B49A37 (.leaf 0x1D86B) (.leaf 0x10115))) (.node 0xDA620EDE8E (.node 0xDA5A06A911 (.leaf 0xFC7) (.leaf 0x34D)) (.node 0xDA66402CF6 (.leaf 0x2B60) (.leaf 0x168E9))))) (nameTree_1615)
def nameTree_1617 : NameTree := .node 0xDAF2FB3F7E (.node 0xDAD1C82010 (.node 0xDAC50A83FB (.node 0xDAC39BEC29 (.leaf 0x32C1) (.leaf 0x1F82E)) (.node 0xDAC86130E1 (.leaf 0x10AD9) (.leaf 0x1E950))) (.node 0xDAE615F27A (.node 0xDAE0F2AB26 (.leaf 0x1D86C) (.leaf 0x1F4F0)) (.node 0xDAF1B6EF0E (.leaf 0x1F34F) (.leaf 0x27FC)))) (.node 0xDB0FDEABB8 (.node 0xDAF91FDD85 (.node 0xDAF8236309 (.leaf 0x1688) (.leaf 0x2901)) (.node 0xDAFCC52B5F (.leaf 0xDD0) (.leaf 0x2CCE))) (.node 0xDB1A94CDC8 (.node 0xDB12FD0A4D (.leaf 0x1F0DB) (.leaf 0x1D081)) (.node 0xDB1AFB2D67 (.leaf 0x261C) (.leaf 0x1B23))))
def nameTree_1618 : NameTree := .node 0xDAC28C5E1F (.node 0xDAA913B0B5 (.node 0xDAA6774A72 (.node 0xDAA318B0B5 (.leaf 0x11162) (.node 0xDAA507B0B5 (.leaf 0x1115D) (.leaf 0x11169))) (.node 0xDAA711B0B5 (.node 0xDAA6E30448 (.leaf 0x26A7) (.leaf 0x1D331)) (.node 0xDAA907B0B5 (.leaf 0x11172) (.leaf 0x11164)))) (.node 0xDABF7614F7 (.node 0xDAB62076AC (.node 0xDAACEE4389 (.leaf 0x1115E) (.leaf 0xFD89)) (.node 0xDAB776EA98 (.leaf 0x1F5DF) (.leaf 0x16B2))) (.node 0xDAC1905969 (.node 0xDAC168284D (.leaf 0x2C60) (.leaf 0xFC9D)) (.node 0xDAC27526B8 (.leaf 0xFCA0) (.leaf 0xFD7F))))) (nameTree_1617)
def nameTree_1619 : NameTree := .node 0xDB7BCD473E (.node 0xDB6BEEB072 (.node 0xDB674109B8 (.node 0xDB5E84E8A8 (.leaf 0x10141) (.leaf 0x1F62)) (.node 0xDB6B8F5BA4 (.leaf 0x16AF3) (.leaf 0x1BCA3))) (.node 0xDB71C61463 (.node 0xDB6D15ABD7 (.leaf 0x1F3A) (.leaf 0x1F7D0)) (.node 0xDB77F9C279 (.leaf 0x16C6) (.leaf 0x10647)))) (.node 0xDB91450034 (.node 0xDB8D90256A (.node 0xDB8BF03BD9 (.leaf 0xA69B) (.leaf 0xFEC2)) (.node 0xDB90506BF0 (.leaf 0x27CF) (.leaf 0x10000))) (.node 0xDB9383EE92 (.node 0xDB91B61E3B (.leaf 0x10BAB) (.leaf 0x1F58A)) (.node 0xDB9E0FE379 (.leaf 0x10142) (.leaf 0x106A0))))
def nameTree_1620 : NameTree := .node 0xDB5DE9DE22 (.node 0xDB3B003435 (.node 0xDB333B8452 (.node 0xDB21BF51CB (.leaf 0x6FE) (.node 0xDB319F86D7 (.leaf 0x6C0) (.leaf 0x17AA))) (.node 0xDB39AB1D3B (.node 0xDB373A8448 (.leaf 0x235C) (.leaf 0x2C75)) (.node 0xDB39B85577 (.leaf 0x297) (.leaf 0x1EEF)))) (.node 0xDB473EB9FE (.node 0xDB45B2677B (.node 0xDB41B7547B (.leaf 0x11047) (.leaf 0x11137)) (.node 0xDB46C05E7B (.leaf 0x1113C) (.leaf 0x11138))) (.node 0xDB56461DFD (.node 0xDB55E2961C (.leaf 0x2AD6) (.leaf 0x1046E)) (.node 0xDB5A114DA0 (.leaf 0x11C62) (.leaf 0x969))))) (nameTree_1619)
def nameTree_1621 : NameTree := .node 0xDBB321C218 (.node 0xDBB1157DFB (.node 0xDB9E103D31 (.node 0xDB9E103CDA (.leaf 0x106B0) (.leaf 0x106B1)) (.node 0xDBA72644D6 (.leaf 0x106B2) (.leaf 0xFC58))) (.node 0xDBB239A627 (.node 0xDBB1F363E9 (.leaf 0x10AC1) (.leaf 0x1EAB)) (.node 0xDBB239AC27 (.leaf 0x11637) (.leaf 0x11635)))) (.node 0xDBE8229465 (.node 0xDBCCE5E583 (.node 0xDBC92D68B8 (.leaf 0xA8FD) (.leaf 0x1B82)) (.node 0xDBE597AF38 (.leaf 0x241A) (.leaf 0x109F8))) (.node 0xDBF193A884 (.node 0xDBEB9CA798 (.leaf 0x65C) (.leaf 0x14D)) (.node 0xDBF193AE84 (.leaf 0xB0C) (.leaf 0xB0B))))
def nameTree_1622 : NameTree := .node 0xDB9E103C83 (.node 0xDB9E0FE631 (.node 0xDB9E0FE4D5 (.node 0xDB9E0FE427 (.leaf 0x106A1) (.node 0xDB9E0FE47E (.leaf 0x106A2) (.leaf 0x106A3))) (.node 0xDB9E0FE583 (.node 0xDB9E0FE52C (.leaf 0x106A4) (.leaf 0x106A5)) (.node 0xDB9E0FE5DA (.leaf 0x106A6) (.leaf 0x106A7)))) (.node 0xDB9E103B27 (.node 0xDB9E103A79 (.node 0xDB9E0FE688 (.leaf 0x106A8) (.leaf 0x106A9)) (.node 0xDB9E103AD0 (.leaf 0x106AA) (.leaf 0x106AB))) (.node 0xDB9E103BD5 (.node 0xDB9E103B7E (.leaf 0x106AC) (.leaf 0x106AD)) (.node 0xDB9E103C2C (.leaf 0x106AE) (.leaf 0x106AF))))) (nameTree_1621)
def nameTree_1623 : NameTree := .node 0xDC3B10D9EC (.node 0xDC29899914 (.node 0xDC1A290D06 (.node 0xDC164F508E (.leaf 0x2E2F) (.leaf 0xA9BD)) (.node 0xDC26AFF44A (.leaf 0x104D3) (.leaf 0x4BE))) (.node 0xDC33F61A45 (.node 0xDC2A18318B (.leaf 0xA9F0) (.leaf 0xA95F)) (.node 0xDC379F69C7 (.leaf 0x1FF) (.leaf 0x1F962)))) (.node 0xDC556067EF (.node 0xDC4B0629D8 (.node 0xDC3F07DF71 (.leaf 0x16BD) (.leaf 0x6A5)) (.node 0xDC4F145787 (.leaf 0x2192) (.leaf 0x96E))) (.node 0xDC55A58F9C (.node 0xDC55A588E9 (.leaf 0x1D352) (.leaf 0x3148)) (.node 0xDC55A5964F (.leaf 0x314E) (.leaf 0x3141))))
def nameTree_1624 : NameTree := .node 0xDC1454AE70 (.node 0xDC07290D06 (.node 0xDC04290D06 (.node 0xDC02330D06 (.leaf 0x104B2) (.node 0xDC03290D06 (.leaf 0x104B4) (.leaf 0x104B5))) (.node 0xDC053D8B7A (.node 0xDC052A1A06 (.leaf 0x104CD) (.leaf 0x104B8)) (.node 0xDC06B6313C (.leaf 0x2721) (.leaf 0x22C6)))) (.node 0xDC0F2A1A06 (.node 0xDC0B290D06 (.node 0xDC083A0D06 (.leaf 0x104D1) (.leaf 0x104BA)) (.node 0xDC0B3A0D06 (.leaf 0x104D0) (.leaf 0x104BE))) (.node 0xDC14256406 (.node 0xDC13290D06 (.leaf 0x104C3) (.leaf 0x104C7)) (.node 0xDC14340D06 (.leaf 0x1F62C) (.leaf 0x104CA))))) (nameTree_1623)
def nameTree_1625 : NameTree := .node 0xD71F811AEF (.node 0xD6105C971E (.node 0xD4645853E6 (.node 0xD3F5530188 (.node 0xD39A741579 (nameTree_1568) (nameTree_1570)) (.node 0xD411EF9C99 (nameTree_1572) (nameTree_1574))) (.node 0xD524F75996 (.node 0xD516FA64B0 (nameTree_1575) (nameTree_1577)) (.node 0xD583B7BC4E (nameTree_1579) (nameTree_1581)))) (.node 0xD6A1113911 (.node 0xD6A10B3711 (.node 0xD667E391B1 (nameTree_1582) (nameTree_1584)) (.node 0xD6A10E3811 (nameTree_1586) (nameTree_1588))) (.node 0xD6A20E3011 (.node 0xD6A1143911 (nameTree_1589) (nameTree_1591)) (.node 0xD6BA419722 (nameTree_1593) (nameTree_1595))))) (.node 0xD909323BEF (.node 0xD8264B49EF (.node 0xD80152C8A4 (.node 0xD77653336F (nameTree_1596) (nameTree_1598)) (.node 0xD807333DE0 (nameTree_1600) (nameTree_1602))) (.node 0xD8A5B3AF5D (.node 0xD88692583C (nameTree_1603) (nameTree_1605)) (.node 0xD8CB8A1928 (nameTree_1607) (nameTree_1609)))) (.node 0xDAA30DB0B5 (.node 0xD9C7C2EC6C (.node 0xD946D602D1 (nameTree_1610) (nameTree_1612)) (.node 0xDA34716366 (nameTree_1614) (nameTree_1616))) (.node 0xDB9E0FE3D0 (.node 0xDB2137D38E (nameTree_1618) (nameTree_1620)) (.node 0xDC012A1A06 (nameTree_1622) (nameTree_1624)))))
def nameTree_1626 : NameTree := .node 0xDC88507FF0 (.node 0xDC6F516939 (.node 0xDC56110A97 (.node 0xDC55A597A6 (.leaf 0x3139) (.node 0xDC55A59A54 (.leaf 0x3134) (.leaf 0x3142))) (.node 0xDC5E6E2698 (.node 0xDC5BF3891C (.leaf 0x1F9C0) (.leaf 0x10456)) (.node 0xDC5E7D0CF5 (.leaf 0x1D8CD) (.leaf 0x2FB)))) (.node 0xDC73B4F475 (.node 0xDC73B4EC75 (.node 0xDC734E71F5 (.leaf 0x1D366) (.leaf 0x2BA7)) (.node 0xDC73B4F075 (.leaf 0x1161) (.leaf 0x1166))) (.node 0xDC73B50075 (.node 0xDC73B4FA75 (.leaf 0x1175) (.leaf 0x1169)) (.node 0xDC7CD9E4CD (.leaf 0x116E) (.leaf 0x1F6B6))))) (.node 0xDC986A7B5B (.node 0xDC8F0DCF29 (.node 0xDC896A755B (.leaf 0x10004) (.node 0xDC8B766D5B (.leaf 0x3C7) (.leaf 0x3B7))) (.node 0xDC966A755B (.node 0xDC93B8CA5E (.leaf 0x4B8) (.leaf 0x1D88)) (.node 0xDC9675755B (.leaf 0x3C6) (.leaf 0x3C8)))) (.node 0xDCA0B688DF (.node 0xDC996A7B5B (.node 0xDC99637A5B (.leaf 0x3C1) (.leaf 0x3FB)) (.node 0xDC9A63815B (.leaf 0x3F8) (.leaf 0x3C4))) (.node 0xDCAFE651AB (.node 0xDCA3899635 (.leaf 0x1EC8) (.leaf 0x1F5C3)) (.node 0xDCAFEFC262 (.leaf 0x4FF) (.leaf 0x10331)))))
def nameTree_1627 : NameTree := .node 0xDD09C3C5E4 (.node 0xDD02466F86 (.node 0xDCF6BCFDD4 (.node 0xDCF696A3B2 (.leaf 0xA903) (.leaf 0x1D1A6)) (.node 0xDCF95E0CE9 (.leaf 0x2232) (.leaf 0x325A))) (.node 0xDD09BCC5E4 (.node 0xDD03414E01 (.leaf 0x1CD9) (.leaf 0xFECD)) (.node 0xDD09C1C5E4 (.leaf 0x192A) (.leaf 0x192B)))) (.node 0xDD17F85DFE (.node 0xDD11CAA563 (.node 0xDD0EA97F2A (.leaf 0x1929) (.leaf 0x1D8C6)) (.node 0xDD15EEC3A8 (.leaf 0x17F3) (.leaf 0x1ED5))) (.node 0xDD19226FD9 (.node 0xDD1803FDF8 (.leaf 0x1362) (.leaf 0x327F)) (.node 0xDD19FD328D (.leaf 0xAB61) (.leaf 0x12151))))
def nameTree_1628 : NameTree := .node 0xDCF398CF1A (.node 0xDCCD8F7038 (.node 0xDCB7C0BC3B (.node 0xDCB189C1C3 (.leaf 0x1D058) (.node 0xDCB63D842A (.leaf 0x2724) (.leaf 0xFC85))) (.node 0xDCC8BE660C (.node 0xDCBBA13D06 (.leaf 0x21BD) (.leaf 0x10A71)) (.node 0xDCCB38981B (.leaf 0x1F3B4) (.leaf 0x2713)))) (.node 0xDCE25897D4 (.node 0xDCCEF4E94A (.node 0xDCCDE73D27 (.leaf 0x112F7) (.leaf 0x1F24)) (.node 0xDCD9534692 (.leaf 0x2B20) (.leaf 0x2136))) (.node 0xDCE60860EA (.node 0xDCE31781DD (.leaf 0x1F55E) (.leaf 0x1038)) (.node 0xDCE81FDC42 (.leaf 0x10196) (.leaf 0x27D9))))) (nameTree_1627)
def nameTree_1629 : NameTree := .node 0xDD6350605E (.node 0xDD53869243 (.node 0xDD4B0997B0 (.node 0xDD4B0991B0 (.leaf 0x2D49) (.leaf 0x2D67)) (.node 0xDD4EE69D1C (.leaf 0x2D53) (.leaf 0x1045E))) (.node 0xDD5874DB47 (.node 0xDD58625C5E (.leaf 0x1F372) (.leaf 0x124AD)) (.node 0xDD587D2C37 (.leaf 0x20E9) (.leaf 0xF10)))) (.node 0xDD7C32AC1C (.node 0xDD785B369C (.node 0xDD6454675E (.leaf 0x124B1) (.leaf 0x124B3)) (.node 0xDD7B9953B8 (.leaf 0x2740) (.leaf 0xFC3E))) (.node 0xDD8B595468 (.node 0xDD81411C26 (.leaf 0x11CB5) (.leaf 0x1F7BD)) (.node 0xDD8EC59C19 (.leaf 0x1D09B) (.leaf 0x126))))
def nameTree_1630 : NameTree := .node 0xDD4B098BB0 (.node 0xDD34345774 (.node 0xDD2610CF40 (.node 0xDD1FCEA563 (.leaf 0x1D7C6) (.node 0xDD22D4AA63 (.leaf 0x17F2) (.leaf 0x17F0))) (.node 0xDD30DCCCAE (.node 0xDD2C7F0232 (.leaf 0x4DE8) (.leaf 0x2631)) (.node 0xDD34199758 (.leaf 0x1A57) (.leaf 0x4CC)))) (.node 0xDD43999123 (.node 0xDD410C004E (.node 0xDD376D08FE (.leaf 0x1213B) (.leaf 0x16816)) (.node 0xDD41338A92 (.leaf 0x108E9) (.leaf 0x1F681))) (.node 0xDD4B0983B0 (.node 0xDD45F5040D (.leaf 0x1F64D) (.leaf 0x1F98B)) (.node 0xDD4B0987B0 (.leaf 0x2D30) (.leaf 0x2D66))))) (nameTree_1629)
def nameTree_1631 : NameTree := .node 0xDDE385D012 (.node 0xDDE074D012 (.node 0xDDDE10FB93 (.node 0xDDDCBFDE7B (.leaf 0x11591) (.leaf 0x758)) (.node 0xDDDF74D012 (.leaf 0x1FBF) (.leaf 0x11596))) (.node 0xDDE373D012 (.node 0xDDE1B5B11C (.leaf 0x1158F) (.leaf 0x1FB2)) (.node 0xDDE37AD012 (.leaf 0x11592) (.leaf 0x1159C)))) (.node 0xDDE89BD901 (.node 0xDDE874D012 (.node 0xDDE574D012 (.leaf 0x11597) (.leaf 0x115A3)) (.node 0xDDE87FD012 (.leaf 0x115AB) (.leaf 0x115AC))) (.node 0xDDE980D012 (.node 0xDDE974D012 (.leaf 0xA908) (.leaf 0x1159E)) (.node 0xDDEDE09063 (.leaf 0x11598) (.leaf 0x1F84))))
def nameTree_1632 : NameTree := .node 0xDDDC74D012 (.node 0xDDC2445F8B (.node 0xDDB25C06D9 (.node 0xDD98CA49E2 (.leaf 0x10002) (.node 0xDDA33421F7 (.leaf 0xFE5D) (.leaf 0x2331))) (.node 0xDDBE6E3330 (.node 0xDDB4B03F06 (.leaf 0x11176) (.leaf 0x10A68)) (.node 0xDDC12FCFA7 (.leaf 0x60C) (.leaf 0x1F840)))) (.node 0xDDD874D012 (.node 0xDDCE5A66FA (.node 0xDDC4218DE2 (.leaf 0xFC5) (.leaf 0x256D)) (.node 0xDDD774D012 (.leaf 0x1D00E) (.leaf 0x115A5))) (.node 0xDDD974D012 (.node 0xDDD970D012 (.leaf 0x11594) (.leaf 0x1159A)) (.node 0xDDDA244330 (.leaf 0x115A0) (.leaf 0xD7E4))))) (nameTree_1631)
def nameTree_1633 : NameTree := .node 0xDE2DEDF886 (.node 0xDE0C62A240 (.node 0xDDFF53DD09 (.node 0xDDF8208D1D (.leaf 0x10B5B) (.node 0xDDFF3D1657 (.leaf 0x2BAC) (.leaf 0x145CE))) (.node 0xDE0614163A (.node 0xDE05E294FA (.leaf 0x323C) (.leaf 0x1D970)) (.node 0xDE0824489D (.leaf 0x2B45) (.leaf 0x2017)))) (.node 0xDE15F66200 (.node 0xDE12BC7ACA (.node 0xDE0DC8DE9E (.leaf 0x1C35) (.leaf 0x2A2F)) (.node 0xDE14AFC955 (.leaf 0xFCD9) (.leaf 0xFCC7))) (.node 0xDE1B1FD5AB (.node 0xDE187AE2A2 (.leaf 0x25F3) (.leaf 0x22D3)) (.node 0xDE26874A29 (.leaf 0xF8C) (.leaf 0x1D8B5))))) (.node 0xDE3B730A64 (.node 0xDE3321064E (.node 0xDE2F069767 (.leaf 0x303) (.node 0xDE328D74F1 (.leaf 0x3333) (.leaf 0xFC91))) (.node 0xDE34094D5D (.node 0xDE33F9F206 (.leaf 0x108E6) (.leaf 0x3304)) (.node 0xDE35ACB812 (.leaf 0x333D) (.leaf 0x1CF7)))) (.node 0xDE47D92EB5 (.node 0xDE3F260310 (.node 0xDE3BA3CE86 (.leaf 0xFC6F) (.leaf 0x1F6B8)) (.node 0xDE403600AF (.leaf 0x22A0) (.leaf 0x229F))) (.node 0xDE4D10DA75 (.node 0xDE4839799B (.leaf 0x21C8) (.leaf 0x10178)) (.node 0xDE4EBB00DB (.leaf 0x5A9) (.leaf 0xC6B)))))
def nameTree_1634 : NameTree := .node 0xDEAB3BF30D (.node 0xDE9B2CBD01 (.node 0xDE9929A901 (.node 0xDE9780F082 (.leaf 0x2C19) (.leaf 0x100C9)) (.node 0xDE9A34B101 (.leaf 0x2C1E) (.leaf 0x2C1C))) (.node 0xDEA374E9E0 (.node 0xDEA11FEB68 (.leaf 0x2C16) (.leaf 0xF9D)) (.node 0xDEA8108042 (.leaf 0x16E4) (.leaf 0x4DC6)))) (.node 0xDEB71FEB68 (.node 0xDEACF68AE6 (.node 0xDEAC70D726 (.leaf 0x2AA7) (.leaf 0x23FC)) (.node 0xDEB3E35080 (.leaf 0x27D6) (.leaf 0x2150))) (.node 0xDEDC1FCF40 (.node 0xDEBE7D978C (.leaf 0xFAC) (.leaf 0x1F82)) (.node 0xDEDE7A4DB8 (.leaf 0x4DE9) (.leaf 0x1399))))
def nameTree_1635 : NameTree := .node 0xDE9535BD01 (.node 0xDE8718EDBB (.node 0xDE617A7367 (.node 0xDE5C98A01D (.leaf 0xC6A) (.node 0xDE5D0BD31A (.leaf 0x2922) (.leaf 0x738))) (.node 0xDE70F36000 (.node 0xDE6624C4EA (.leaf 0x1D78F) (.leaf 0x215F)) (.node 0xDE8718E9BB (.leaf 0x1D07B) (.leaf 0x1042A)))) (.node 0xDE888CBA19 (.node 0xDE8718F7BB (.node 0xDE8718F1BB (.leaf 0x10429) (.leaf 0x10428)) (.node 0xDE873BBD01 (.leaf 0x1042C) (.leaf 0x2C00))) (.node 0xDE90506FF0 (.node 0xDE888CBB5B (.leaf 0xA96A) (.leaf 0x1B08E)) (.node 0xDE952FBD01 (.leaf 0x10001) (.leaf 0x2C11))))) (nameTree_1634)
def nameTree_1636 : NameTree := .node 0xDF5B27AF17 (.node 0xDF48620F49 (.node 0xDF3C0E9B8C (.node 0xDF37525169 (.leaf 0x169B) (.leaf 0x231B)) (.node 0xDF413A5389 (.leaf 0x1D936) (.leaf 0x75B))) (.node 0xDF50979B9A (.node 0xDF4F946DE9 (.leaf 0x10FF) (.leaf 0x1D111)) (.node 0xDF578A657A (.leaf 0xFCF9) (.leaf 0x4FC)))) (.node 0xDF6B516090 (.node 0xDF60917A61 (.node 0xDF5DBD4EA2 (.leaf 0x2C3) (.leaf 0x110B)) (.node 0xDF65BC2529 (.leaf 0x2549) (.leaf 0xFCBF))) (.node 0xDF820624FD (.node 0xDF7F9B3A1E (.leaf 0x1D362) (.leaf 0xB73)) (.node 0xDF82337DD9 (.leaf 0x2EC0) (.leaf 0x1D71))))
def nameTree_1637 : NameTree := .node 0xDF353D000F (.node 0xDF001CA07A (.node 0xDEF25CB412 (.node 0xDEF24FAC7B (.leaf 0x18DB) (.node 0xDEF258B412 (.leaf 0x1F39A) (.leaf 0x110E2))) (.node 0xDEF266B412 (.node 0xDEF260B412 (.leaf 0x110E7) (.leaf 0x110E4)) (.node 0xDEF26CB412 (.leaf 0x110E6) (.leaf 0x110E5)))) (.node 0xDF248CC4BF (.node 0xDF02EA2C8F (.node 0xDF0057C27A (.leaf 0x512) (.leaf 0x4C7)) (.node 0xDF21AE9741 (.leaf 0x1D309) (.leaf 0x1B01))) (.node 0xDF2C8BFD2D (.node 0xDF2C6CC403 (.leaf 0x1D7AB) (.leaf 0xFEFB)) (.node 0xDF2CBEF728 (.leaf 0x103F) (.leaf 0x202C))))) (nameTree_1636)
def nameTree_1638 : NameTree := .node 0xDFDADAD521 (.node 0xDFD0922DEE (.node 0xDFD028A0D3 (.node 0xDFCDBB11EE (.leaf 0x112F3) (.leaf 0x76F)) (.node 0xDFD03874D6 (.leaf 0x29DD) (.leaf 0x1F913))) (.node 0xDFD2910AE5 (.node 0xDFD0A3B5B6 (.leaf 0x1F91C) (.leaf 0x12207)) (.node 0xDFD36F5B18 (.leaf 0x120F1) (.leaf 0x1F562)))) (.node 0xDFE6C34102 (.node 0xDFDF172098 (.node 0xDFDB30EDAB (.leaf 0x1F552) (.leaf 0x26AB)) (.node 0xDFDF6FAA05 (.leaf 0x1EB6) (.leaf 0x2A59))) (.node 0xDFF219BF7E (.node 0xDFF046FD02 (.leaf 0x25C7) (.leaf 0x1036)) (.node 0xDFF47841E4 (.leaf 0x1D305) (.leaf 0x1144D))))
def nameTree_1639 : NameTree := .node 0xDFC98F678F (.node 0xDFAA1B2805 (.node 0xDFAA1B1405 (.node 0xDF9B8B1A02 (.leaf 0x1D7E2) (.node 0xDFA37B36EB (.leaf 0x2749) (.leaf 0x775))) (.node 0xDFAA1B1C05 (.node 0xDFAA1B1805 (.leaf 0x10800) (.leaf 0x10801)) (.node 0xDFAA1B2205 (.leaf 0x10802) (.leaf 0x10803)))) (.node 0xDFBD6C5C38 (.node 0xDFB21B9DF0 (.node 0xDFB03D657A (.leaf 0x10804) (.leaf 0x4C3)) (.node 0xDFB8C2DF33 (.leaf 0x10AF4) (.leaf 0x835))) (.node 0xDFC076E511 (.node 0xDFBE6687C8 (.leaf 0x279A) (.leaf 0xFD88)) (.node 0xDFC6908AD8 (.leaf 0x2582) (.leaf 0x3D3))))) (nameTree_1638)
def nameTree_1640 : NameTree := .node 0xE01BD0AC02 (.node 0xE009F8449A (.node 0xE003C3C1ED (.node 0xDFFA107F34 (.leaf 0x1F4EB) (.node 0xDFFD3F8BC4 (.leaf 0x1B0E) (.leaf 0x1D721))) (.node 0xE006B021E6 (.node 0xE004FFE133 (.leaf 0x1E1) (.leaf 0x1D327)) (.node 0xE00842FD36 (.leaf 0x1D340) (.leaf 0x12276)))) (.node 0xE012D248FE (.node 0xE011034967 (.node 0xE00F51DB8A (.leaf 0x11480) (.leaf 0x1D34F)) (.node 0xE012B575C8 (.leaf 0x12001) (.leaf 0x1D339))) (.node 0xE01884BCFD (.node 0xE013ACF699 (.leaf 0x6D8) (.leaf 0x1BB5)) (.node 0xE019AC0399 (.leaf 0x1D841) (.leaf 0x1BB4))))) (.node 0xE01E89AAE4 (.node 0xE01D88F6C8 (.node 0xE01CDDD312 (.leaf 0x4DDE) (.node 0xE01D88F2C8 (.leaf 0x1D8FC) (.leaf 0x823))) (.node 0xE01D8900C8 (.node 0xE01D88FAC8 (.leaf 0x81D) (.leaf 0x82A)) (.node 0xE01D8906C8 (.leaf 0x82B) (.leaf 0x827)))) (.node 0xE03A905A4A (.node 0xE0357B1DC4 (.node 0xE034E95C54 (.leaf 0x4DD8) (.leaf 0x1F4FA)) (.node 0xE036817A71 (.leaf 0xFE7B) (.leaf 0x1088C))) (.node 0xE03AA45A4A (.node 0xE03A9E5A4A (.leaf 0xA79B) (.leaf 0xA79D)) (.node 0xE03B075153 (.leaf 0xA79F) (.leaf 0x332F)))))
def nameTree_1641 : NameTree := .node 0xE08DE49CF4 (.node 0xE07FF8F0F0 (.node 0xE07E4719A7 (.node 0xE07886E52B (.leaf 0x58A) (.leaf 0x1F354)) (.node 0xE07FBFFD7E (.leaf 0x1F620) (.leaf 0x118E7))) (.node 0xE0851ACAEF (.node 0xE08102996C (.leaf 0x12469) (.leaf 0x2016)) (.node 0xE086EE426F (.leaf 0x396) (.leaf 0x2514)))) (.node 0xE08DE5BB0D (.node 0xE08DE544C9 (.node 0xE08DE534C9 (.leaf 0x1204A) (.leaf 0x12101)) (.node 0xE08DE5625A (.leaf 0x12102) (.leaf 0x12136))) (.node 0xE08DE63AE2 (.node 0xE08DE603C0 (.leaf 0x121A2) (.leaf 0x1224D)) (.node 0xE08DE63EE2 (.leaf 0x12280) (.leaf 0x12284))))
def nameTree_1642 : NameTree := .node 0xE075EDE110 (.node 0xE05378D171 (.node 0xE045BB907F (.node 0xE03E391556 (.leaf 0x2EE6) (.node 0xE04479890A (.leaf 0x2A00) (.leaf 0x1D90E))) (.node 0xE050B495CC (.node 0xE047B1191A (.leaf 0x2025) (.leaf 0xF09)) (.node 0xE052F19041 (.leaf 0x10113) (.leaf 0x2668)))) (.node 0xE060546A77 (.node 0xE055F0901C (.node 0xE054B18A8C (.leaf 0x1D1D7) (.leaf 0x11141)) (.node 0xE0564657BA (.leaf 0x1046B) (.leaf 0xFDB3))) (.node 0xE06BBA3C36 (.node 0xE0671DF9DF (.leaf 0x1D367) (.leaf 0x2B28)) (.node 0xE071E72114 (.leaf 0xA8F2) (.leaf 0x2221))))) (nameTree_1641)
def nameTree_1643 : NameTree := .node 0xE09EE60D96 (.node 0xE09BA24A36 (.node 0xE099EC1396 (.node 0xE099E60D96 (.leaf 0x155A) (.leaf 0x1556)) (.node 0xE09A5682B8 (.leaf 0x1558) (.leaf 0x1D9BC))) (.node 0xE09EDE0596 (.node 0xE09BE33F2D (.leaf 0x6BC) (.leaf 0xDDD)) (.node 0xE09EDE1D96 (.leaf 0x1473) (.leaf 0x18B8)))) (.node 0xE09EF40D96 (.node 0xE09EF40596 (.node 0xE09EEC1396 (.leaf 0x146E) (.leaf 0x1470)) (.node 0xE09EF40996 (.leaf 0x147E) (.leaf 0x1474))) (.node 0xE09FDE0596 (.node 0xE09EF41396 (.leaf 0x1476) (.leaf 0x147A)) (.node 0xE09FDE1D96 (.leaf 0x14DB) (.leaf 0x18BD))))
def nameTree_1644 : NameTree := .node 0xE099DE0596 (.node 0xE095A8B220 (.node 0xE0915F739A (.node 0xE08DE64EE2 (.leaf 0x12285) (.node 0xE08EC99789 (.leaf 0x12287) (.leaf 0xB6F))) (.node 0xE094DE0D96 (.node 0xE092839725 (.leaf 0x2D4) (.leaf 0x1D0CC)) (.node 0xE094DE1D96 (.leaf 0x1402) (.leaf 0x18B2)))) (.node 0xE096F40596 (.node 0xE096E60D96 (.node 0xE096DE0596 (.leaf 0x1A7C) (.leaf 0x1491)) (.node 0xE096EC1396 (.leaf 0x148C) (.leaf 0x148E))) (.node 0xE096F40D96 (.node 0xE096F40996 (.leaf 0x149C) (.leaf 0x1492)) (.node 0xE096F41396 (.leaf 0x1494) (.leaf 0x1498))))) (nameTree_1643)
def nameTree_1645 : NameTree := .node 0xE0A1EB0B96 (.node 0xE0A1E40596 (.node 0xE0A1DE0596 (.node 0xE0A0F41396 (.leaf 0x14AE) (.leaf 0x14B2)) (.node 0xE0A1DE1D96 (.leaf 0x14C8) (.leaf 0x18BC))) (.node 0xE0A1E41396 (.node 0xE0A1E40D96 (.leaf 0x1593) (.leaf 0x158F)) (.node 0xE0A1E60D96 (.leaf 0x1591) (.leaf 0x14C3)))) (.node 0xE0A1F40996 (.node 0xE0A1EC1D96 (.node 0xE0A1EC1396 (.leaf 0x1596) (.leaf 0x14C5)) (.node 0xE0A1F40596 (.leaf 0x18BB) (.leaf 0x14CB))) (.node 0xE0A1F41396 (.node 0xE0A1F40D96 (.leaf 0x14C9) (.leaf 0x18C6)) (.node 0xE0A3DE0596 (.leaf 0x18CA) (.leaf 0x1439))))
def nameTree_1646 : NameTree := .node 0xE0A0F40D96 (.node 0xE09FF40D96 (.node 0xE09FE60D96 (.node 0xE09FE50D96 (.leaf 0x15A4) (.node 0xE09FE51396 (.leaf 0x15A0) (.leaf 0x15A2))) (.node 0xE09FF40596 (.node 0xE09FEC1396 (.leaf 0x14D6) (.leaf 0x14D8)) (.node 0xE09FF40996 (.leaf 0x14E6) (.leaf 0x14DC)))) (.node 0xE0A0E60D96 (.node 0xE0A0DE0596 (.node 0xE09FF41396 (.leaf 0x14DE) (.leaf 0x14E2)) (.node 0xE0A0DE1D96 (.leaf 0x14AB) (.leaf 0x18BA))) (.node 0xE0A0F40596 (.node 0xE0A0EC1396 (.leaf 0x14A6) (.leaf 0x14A8)) (.node 0xE0A0F40996 (.leaf 0x14B6) (.leaf 0x14AC))))) (nameTree_1645)
def nameTree_1647 : NameTree := .node 0xE0A5DE1D96 (.node 0xE0A3F41396 (.node 0xE0A3EC1D96 (.node 0xE0A3E60D96 (.leaf 0x18B5) (.node 0xE0A3EC1396 (.leaf 0x1432) (.leaf 0x1434))) (.node 0xE0A3F40996 (.node 0xE0A3F40596 (.leaf 0x18B4) (.leaf 0x1444)) (.node 0xE0A3F40D96 (.leaf 0x143A) (.leaf 0x143C)))) (.node 0xE0A4E60D96 (.node 0xE0A4DE0596 (.node 0xE0A43E85EA (.leaf 0x1440) (.leaf 0x1F90)) (.node 0xE0A4DE0D96 (.leaf 0x1584) (.leaf 0x166F))) (.node 0xE0A516B251 (.node 0xE0A4EC1396 (.leaf 0x1580) (.leaf 0x1582)) (.node 0xE0A5DE0596 (.leaf 0x1D775) (.leaf 0x154C))))) (.node 0xE0A6DE0596 (.node 0xE0A5EC1396 (.node 0xE0A5E60D96 (.leaf 0x18C5) (.node 0xE0A5E9B944 (.leaf 0x1547) (.leaf 0x1F37C))) (.node 0xE0A5F40D96 (.node 0xE0A5F40596 (.leaf 0x1549) (.leaf 0x18D3)) (.node 0xE0A5F41396 (.leaf 0x18CF) (.leaf 0x18D1)))) (.node 0xE0A6E50D96 (.node 0xE0A6E50596 (.node 0xE0A6DE1D96 (.leaf 0x14F5) (.leaf 0x18BF)) (.node 0xE0A6E50996 (.leaf 0x1515) (.leaf 0x1510))) (.node 0xE0A6E60D96 (.node 0xE0A6E51396 (.leaf 0x1511) (.leaf 0x1513)) (.node 0xE0A6EC1396 (.leaf 0x14F0) (.leaf 0x14F2)))))
def nameTree_1648 : NameTree := .node 0xE0A7F60996 (.node 0xE0A7F40996 (.node 0xE0A7F11396 (.node 0xE0A7F10D96 (.leaf 0x156F) (.leaf 0x1468)) (.node 0xE0A7F40596 (.leaf 0x1469) (.leaf 0x1461))) (.node 0xE0A7F41396 (.node 0xE0A7F40D96 (.leaf 0x1457) (.leaf 0x1459)) (.node 0xE0A7F60596 (.leaf 0x145D) (.leaf 0x1573)))) (.node 0xE0AADE1D96 (.node 0xE0A7F61396 (.node 0xE0A7F60D96 (.leaf 0x1570) (.leaf 0x1571)) (.node 0xE0AADE0596 (.leaf 0x1572) (.leaf 0x1419))) (.node 0xE0AAEC1396 (.node 0xE0AAE60D96 (.leaf 0x18B3) (.leaf 0x1410)) (.node 0xE0ACDE0596 (.leaf 0x1414) (.leaf 0x152E))))
def nameTree_1649 : NameTree := .node 0xE0A7F10C96 (.node 0xE0A7E50596 (.node 0xE0A6F40D96 (.node 0xE0A6F40596 (.leaf 0x18BE) (.node 0xE0A6F40996 (.leaf 0x1500) (.leaf 0x14F6))) (.node 0xE0A7DE0596 (.node 0xE0A6F41396 (.leaf 0x14F8) (.leaf 0x14FC)) (.node 0xE0A7DE1D96 (.leaf 0x1456) (.leaf 0x18B7)))) (.node 0xE0A7E60D96 (.node 0xE0A7E50D96 (.node 0xE0A7E50996 (.leaf 0x1566) (.leaf 0x155E)) (.node 0xE0A7E51396 (.leaf 0x1560) (.leaf 0x1564))) (.node 0xE0A7F10596 (.node 0xE0A7EC1396 (.leaf 0x144F) (.leaf 0x1451)) (.node 0xE0A7F10996 (.leaf 0x146A) (.leaf 0x1467))))) (nameTree_1648)
def nameTree_1650 : NameTree := .node 0xE0F82B534D (.node 0xE0E3898765 (.node 0xE0DCD5F96D (.node 0xE0D9FB5DC6 (.leaf 0x1D0B9) (.leaf 0x32BF)) (.node 0xE0E1E81725 (.leaf 0x1F3F1) (.leaf 0x4DE0))) (.node 0xE0EF2BF087 (.node 0xE0E6C69C6E (.leaf 0x20B8) (.leaf 0x2CB3)) (.node 0xE0F42F7905 (.leaf 0x71C) (.leaf 0x232E)))) (.node 0xE103B9293D (.node 0xE0F93D33AC (.node 0xE0F840989B (.leaf 0x118EB) (.leaf 0x12114)) (.node 0xE0FB43EF33 (.leaf 0x1D97D) (.leaf 0x1D315))) (.node 0xE105891DC9 (.node 0xE105401804 (.leaf 0x1D334) (.leaf 0x2497)) (.node 0xE105E31AC4 (.leaf 0x27B4) (.leaf 0x12264))))
def nameTree_1651 : NameTree := .node 0xE0D717904A (.node 0xE0ACF41396 (.node 0xE0ACEC1D96 (.node 0xE0ACE60D96 (.leaf 0x18C4) (.node 0xE0ACEC1396 (.leaf 0x1529) (.leaf 0x152B))) (.node 0xE0ACF40996 (.node 0xE0ACF40596 (.leaf 0x18C3) (.leaf 0x1539)) (.node 0xE0ACF40D96 (.leaf 0x152F) (.leaf 0x1531)))) (.node 0xE0C675EA65 (.node 0xE0B616242F (.node 0xE0B235F025 (.leaf 0x1535) (.leaf 0x30A0)) (.node 0xE0BE927176 (.leaf 0xA640) (.leaf 0x112F8))) (.node 0xE0CF5443BC (.node 0xE0C70F5EAD (.leaf 0x210F) (.leaf 0x1F7CD)) (.node 0xE0CF9AAEB6 (.leaf 0xD7D0) (.leaf 0xA799))))) (nameTree_1650)
def nameTree_1652 : NameTree := .node 0xE13928872B (.node 0xE136DF216E (.node 0xE131C2911E (.node 0xE12BDEA065 (.leaf 0x2009) (.leaf 0x330)) (.node 0xE134202F87 (.leaf 0x1D08E) (.leaf 0x2ECB))) (.node 0xE137C277BF (.node 0xE136FF66C3 (.leaf 0x185) (.leaf 0x2D)) (.node 0xE137ED186E (.leaf 0x1D997) (.leaf 0x1A8)))) (.node 0xE14DB387C7 (.node 0xE1443E5DEC (.node 0xE14160C1AB (.leaf 0x23B9) (.leaf 0x32AD)) (.node 0xE14516ADF6 (.leaf 0x2376) (.leaf 0x120CB))) (.node 0xE1508788C2 (.node 0xE1508784C2 (.leaf 0x2A05) (.leaf 0xF7A)) (.node 0xE150878EC2 (.leaf 0xF72) (.leaf 0xF7C))))
def nameTree_1653 : NameTree := .node 0xE12AD9FD11 (.node 0xE11596D81A (.node 0xE111E314C4 (.node 0xE10A161E80 (.leaf 0x248C) (.node 0xE10FD2FF07 (.leaf 0x1D317) (.leaf 0x22B9))) (.node 0xE11596D01A (.node 0xE113F510C4 (.leaf 0x12266) (.leaf 0x12268)) (.node 0xE11596D41A (.leaf 0x12D0) (.leaf 0x12D5)))) (.node 0xE117CFA039 (.node 0xE11596E41A (.node 0xE11596DE1A (.leaf 0x12D2) (.leaf 0x12D6)) (.node 0xE11597E4A7 (.leaf 0x12D1) (.leaf 0xFC57))) (.node 0xE11D124883 (.node 0xE118ABD37C (.leaf 0xFC8B) (.leaf 0x1179)) (.node 0xE12111241A (.leaf 0x29E8) (.leaf 0x25E4))))) (nameTree_1652)
def nameTree_1654 : NameTree := .node 0xE18843A9D6 (.node 0xE1764B983C (.node 0xE15DFCEC1F (.node 0xE1554AF386 (.leaf 0xF74) (.node 0xE15AB8BC63 (.leaf 0x255C) (.leaf 0x1D877))) (.node 0xE167E05D68 (.node 0xE160D51075 (.leaf 0x1D9C6) (.leaf 0x2CED)) (.node 0xE176463CF3 (.leaf 0x2655) (.leaf 0xE007D)))) (.node 0xE180E672A7 (.node 0xE178E673EA (.node 0xE177C2E6D6 (.leaf 0x1BC70) (.leaf 0x1F494)) (.node 0xE17D680DBA (.leaf 0x296) (.leaf 0xD7DB))) (.node 0xE186CD31D7 (.node 0xE186C731D7 (.leaf 0x12333) (.leaf 0x1D06)) (.node 0xE188439DD6 (.leaf 0x1D23) (.leaf 0x1924))))) (.node 0xE18C08E80E (.node 0xE188E29025 (.node 0xE1884799D6 (.leaf 0x1926) (.node 0xE18851A3D6 (.leaf 0x1923) (.leaf 0x1925))) (.node 0xE189E28A07 (.node 0xE1895079F0 (.leaf 0x1F7C) (.leaf 0x10003)) (.node 0xE18B6AB7D7 (.leaf 0x1F61) (.leaf 0x2004)))) (.node 0xE198FC87E3 (.node 0xE193C836D7 (.node 0xE192FD7AE3 (.leaf 0xFBA6) (.leaf 0x102E5)) (.node 0xE195C3B45D (.leaf 0xA776) (.leaf 0x1FB))) (.node 0xE19A43A35C (.node 0xE19917FC7F (.leaf 0x102E4) (.leaf 0x25F0)) (.node 0xE19A84D4B9 (.leaf 0x334) (.leaf 0x2769)))))
def nameTree_1655 : NameTree := .node 0xE1EB5967CD (.node 0xE1DEC25495 (.node 0xE1CDBFE237 (.node 0xE1C938A40A (.leaf 0x1143B) (.leaf 0x2524)) (.node 0xE1DDBD8576 (.leaf 0x1D901) (.leaf 0x1D9F1))) (.node 0xE1E462A723 (.node 0xE1E294419F (.leaf 0x1F435) (.leaf 0x10128)) (.node 0xE1E6BB7A41 (.leaf 0xF8B) (.leaf 0x1E5F)))) (.node 0xE1F5C25928 (.node 0xE1F069FBC2 (.node 0xE1EEEF0458 (.leaf 0x25FC) (.leaf 0x214E)) (.node 0xE1F0A590F3 (.leaf 0x9FC) (.leaf 0x1DA54))) (.node 0xE1FB9392F3 (.node 0xE1FA3DD85F (.leaf 0x3036) (.leaf 0x1D90D)) (.node 0xE1FF5C66BF (.leaf 0xF8F) (.leaf 0x210E))))
def nameTree_1656 : NameTree := .node 0xE1C1DD2901 (.node 0xE1B1157DFB (.node 0xE1A2023883 (.node 0xE1A0A797DC (.leaf 0x1F6A5) (.node 0xE1A1D56C4A (.leaf 0xA64B) (.leaf 0x12320))) (.node 0xE1AC460E70 (.node 0xE1A2777979 (.leaf 0xA754) (.leaf 0x4DC9)) (.node 0xE1ADDC9201 (.leaf 0x134) (.leaf 0x292C)))) (.node 0xE1BA523127 (.node 0xE1B6CD651D (.node 0xE1B4A6CAD9 (.leaf 0x10ACD) (.leaf 0x2BA5)) (.node 0xE1B6CD6B1D (.leaf 0x1D11) (.leaf 0x1D1D))) (.node 0xE1BFA3EE57 (.node 0xE1BD4FBA55 (.leaf 0x1D6FB) (.leaf 0x206D)) (.node 0xE1C1D72301 (.leaf 0x1F0C2) (.leaf 0x1143D))))) (nameTree_1655)
def nameTree_1657 : NameTree := .node 0xE23DA98E63 (.node 0xE2338F99DC (.node 0xE2338F8C76 (.node 0xE23170C3E8 (.leaf 0x25EA) (.leaf 0x1F66C)) (.node 0xE2338F9329 (.leaf 0xD7EF) (.leaf 0xD7F2))) (.node 0xE2338F9DE1 (.node 0xE2338F9A8F (.leaf 0xD7EA) (.leaf 0x11E9)) (.node 0xE236DE7255 (.leaf 0x11EA) (.leaf 0x1F356)))) (.node 0xE245F39317 (.node 0xE245F38917 (.node 0xE2440A1347 (.leaf 0x3187) (.leaf 0xA65C)) (.node 0xE245F38D17 (.leaf 0x1E909) (.leaf 0x1E90B))) (.node 0xE24A6EFDE9 (.node 0xE245F39917 (.leaf 0x1E90C) (.leaf 0x1E913)) (.node 0xE24A6EFEE9 (.leaf 0x115C6) (.leaf 0x115C7))))
def nameTree_1658 : NameTree := .node 0xE22FA2EBD4 (.node 0xE221FC2795 (.node 0xE20B028F59 (.node 0xE204110926 (.leaf 0x1011C) (.node 0xE20A1F1760 (.leaf 0x1D174) (.leaf 0x11081))) (.node 0xE21AD2FA22 (.node 0xE21878D7EF (.leaf 0x1F851) (.leaf 0x2033)) (.node 0xE21B619FF4 (.leaf 0x10157) (.leaf 0x14A0)))) (.node 0xE22B363A46 (.node 0xE222102795 (.node 0xE222041B95 (.leaf 0xAAEE) (.leaf 0xAAEB)) (.node 0xE22B363046 (.leaf 0xAAEC) (.leaf 0x1D4B))) (.node 0xE22ECD88BD (.node 0xE22E91B23D (.leaf 0x1D53) (.leaf 0x12513)) (.node 0xE22F3DFB1A (.leaf 0x10A50) (.leaf 0x220C))))) (nameTree_1657)
def nameTree_1659 : NameTree := .node 0xE29593342B (.node 0xE29593302B (.node 0xE294CB882C (.node 0xE294C6882C (.leaf 0x1D1DB) (.leaf 0xFBC)) (.node 0xE294CD882C (.leaf 0xFBA) (.leaf 0xFBB))) (.node 0xE29593322B (.node 0xE29593312B (.leaf 0x1D16E) (.leaf 0x1D16F)) (.node 0xE29593332B (.leaf 0x1D170) (.leaf 0x1D171)))) (.node 0xE29D589B8C (.node 0xE29B7C4055 (.node 0xE2997C4055 (.leaf 0x1D172) (.leaf 0x509)) (.node 0xE29CEDF537 (.leaf 0x50B) (.leaf 0x2332))) (.node 0xE2A17C4055 (.node 0xE2A07C4055 (.leaf 0x1805) (.leaf 0x50D)) (.node 0xE2A77C4055 (.leaf 0x50F) (.leaf 0x505))))
def nameTree_1660 : NameTree := .node 0xE2929D3128 (.node 0xE277D09DCF (.node 0xE25CF9E4CD (.node 0xE24BA7174A (.leaf 0x115C8) (.node 0xE2577F5728 (.leaf 0xA982) (.leaf 0x2055))) (.node 0xE26E3EF359 (.node 0xE261DA941B (.leaf 0x2137) (.leaf 0x109D4)) (.node 0xE273D0D7ED (.leaf 0xFB5B) (.leaf 0x6FD)))) (.node 0xE27EA6D281 (.node 0xE27CAC9169 (.node 0xE27A7FCB0D (.leaf 0xA8E5) (.leaf 0x4DD1)) (.node 0xE27DCFAACF (.leaf 0x11AF0) (.leaf 0xA8E4))) (.node 0xE2917C4055 (.node 0xE28FFCF51F (.leaf 0x1C6) (.leaf 0x2B6E)) (.node 0xE291850BED (.leaf 0x503) (.leaf 0x11AE3))))) (nameTree_1659)
def nameTree_1661 : NameTree := .node 0xE2C978A4D4 (.node 0xE2B17358AE (.node 0xE2AC5A1A76 (.node 0xE2AC462A76 (.leaf 0x11A57) (.node 0xE2AC541A76 (.leaf 0x11A58) (.leaf 0x11A56))) (.node 0xE2AFCEB524 (.node 0xE2AEA68A76 (.leaf 0x11A52) (.leaf 0x1E024)) (.node 0xE2B1356A5C (.leaf 0x1016A) (.leaf 0x1D16)))) (.node 0xE2BD6F0EBC (.node 0xE2BB4968CA (.node 0xE2B7388224 (.leaf 0xFB48) (.leaf 0x2B4E)) (.node 0xE2BCC80E7D (.leaf 0xFD5) (.leaf 0x22D9))) (.node 0xE2C7D84C5C (.node 0xE2C06F0EBC (.leaf 0x10992) (.leaf 0x10991)) (.node 0xE2C8AD7259 (.leaf 0x10B9B) (.leaf 0xFB8F))))) (.node 0xE2F226358B (.node 0xE2E4000F58 (.node 0xE2CBF19865 (.leaf 0x1F5D2) (.node 0xE2D37AE480 (.leaf 0x1F556) (.leaf 0x27E1))) (.node 0xE2EC6C9823 (.node 0xE2E7A6AA68 (.leaf 0x1F64F) (.leaf 0x4DC4)) (.node 0xE2F09DE8A7 (.leaf 0x1D0CB) (.leaf 0x1F96B)))) (.node 0xE2FB1FE1C9 (.node 0xE2FA225D2D (.node 0xE2F31E165B (.leaf 0x118F1) (.leaf 0x16EC)) (.node 0xE2FAEAD559 (.leaf 0x1D824) (.leaf 0xFB6F))) (.node 0xE30597E91A (.node 0xE304D9322F (.leaf 0x2516) (.leaf 0x17E0)) (.node 0xE30CE8C844 (.leaf 0xA86F) (.leaf 0xA8D7)))))
def nameTree_1662 : NameTree := .node 0xE34DC44898 (.node 0xE3484039D1 (.node 0xE33D7FA8A6 (.node 0xE33D79A2A6 (.leaf 0x1C26) (.leaf 0x1C29)) (.node 0xE3457775AA (.leaf 0x1C2B) (.leaf 0xB77))) (.node 0xE34CD0671D (.node 0xE349132987 (.leaf 0x20AC) (.leaf 0x2EEC)) (.node 0xE34D229E7C (.leaf 0x1F782) (.leaf 0xDC1)))) (.node 0xE34DC45755 (.node 0xE34DC455FE (.node 0xE34DC44F4B (.leaf 0x110C) (.leaf 0x1112)) (.node 0xE34DC456B1 (.leaf 0x1106) (.leaf 0x1105))) (.node 0xE351C7988B (.node 0xE34DC45A03 (.leaf 0x1102) (.leaf 0x1107)) (.node 0xE3541D3F95 (.leaf 0x1F2A) (.leaf 0x6A2))))
def nameTree_1663 : NameTree := .node 0xE33D6B94A6 (.node 0xE31FC97493 (.node 0xE31A002A82 (.node 0xE317291DD9 (.leaf 0x115D1) (.node 0xE31A002682 (.leaf 0x108AB) (.leaf 0x1031))) (.node 0xE31CEDC8AA (.node 0xE31A003682 (.leaf 0x102D) (.leaf 0x102F)) (.node 0xE31CEDCCAA (.leaf 0x1D0E) (.leaf 0x1D19)))) (.node 0xE32865166C (.node 0xE32307D8CB (.node 0xE320EE4F12 (.leaf 0x1F023) (.leaf 0x1DA64)) (.node 0xE3231BF159 (.leaf 0xFB7B) (.leaf 0xFB63))) (.node 0xE32EFD43F7 (.node 0xE32CA3937F (.leaf 0x1DC) (.leaf 0x1F48B)) (.node 0xE3301D34CC (.leaf 0x3338) (.leaf 0x2A52))))) (nameTree_1662)
def nameTree_1664 : NameTree := .node 0xE3B6270867 (.node 0xE3A2C59C61 (.node 0xE399D83ABB (.node 0xE3973B683E (.leaf 0x1F897) (.leaf 0xAB45)) (.node 0xE39C65A464 (.leaf 0x1D806) (.leaf 0x2B5A))) (.node 0xE3B2A0ACBD (.node 0xE3AA70D8D1 (.leaf 0x2E00) (.leaf 0x344)) (.node 0xE3B4B03F06 (.leaf 0x1F831) (.leaf 0x10A62)))) (.node 0xE3C0DD84E2 (.node 0xE3BC7645A0 (.node 0xE3B958B4FC (.leaf 0x1F4A2) (.leaf 0x1BA5)) (.node 0xE3BEF67A53 (.leaf 0x652) (.leaf 0x21EE))) (.node 0xE3C95B3ACE (.node 0xE3C2EB86E2 (.leaf 0x115C5) (.leaf 0x115C4)) (.node 0xE3D686CC77 (.leaf 0x220A) (.leaf 0xFE2A))))
def nameTree_1665 : NameTree := .node 0xE396644945 (.node 0xE37859B69F (.node 0xE36E39F818 (.node 0xE36E370418 (.leaf 0x1D010) (.node 0xE36E380418 (.leaf 0x1D6B3) (.leaf 0x1D6B4))) (.node 0xE3701ACCBF (.node 0xE36E41F818 (.leaf 0x1D6B7) (.leaf 0x1D6B5)) (.node 0xE374BFF57F (.leaf 0x2A97) (.leaf 0xFE22)))) (.node 0xE3864FA5F9 (.node 0xE37E5134D2 (.node 0xE37BBFF4D5 (.leaf 0x11650) (.leaf 0x118E3)) (.node 0xE381DA699A (.leaf 0x15AF) (.leaf 0x151))) (.node 0xE38E282421 (.node 0xE38C3297F6 (.leaf 0x31C9) (.leaf 0x777)) (.node 0xE3904C39B6 (.leaf 0x16F64) (.leaf 0x1D908))))) (nameTree_1664)
def nameTree_1666 : NameTree := .node 0xE42DC4CCA6 (.node 0xE4224F53EF (.node 0xE41E32FC2B (.node 0xE419EC0998 (.leaf 0x1DA1) (.leaf 0xFD9B)) (.node 0xE42140E4DF (.leaf 0x213A) (.leaf 0xFD06))) (.node 0xE42937AF30 (.node 0xE42863B74B (.leaf 0x19D0) (.leaf 0x2B5C)) (.node 0xE42C6C88C4 (.leaf 0x27EC) (.leaf 0x2386)))) (.node 0xE43C212387 (.node 0xE42EF87BF1 (.node 0xE42ECA510C (.leaf 0x1FA7) (.leaf 0x1EEB)) (.node 0xE432F48005 (.leaf 0x1EE5B) (.leaf 0x1EE54))) (.node 0xE43FEEE46F (.node 0xE43CCC4408 (.leaf 0x2EE5) (.leaf 0xA75F)) (.node 0xE4451D2287 (.leaf 0x2606) (.leaf 0x2EEA))))
def nameTree_1667 : NameTree := .node 0xE4185B8326 (.node 0xE3F80C2957 (.node 0xE3DB2AD1F2 (.node 0xE3DA29BFCD (.leaf 0xFEC1) (.node 0xE3DA6A972C (.leaf 0xFD8) (.leaf 0x4DC5))) (.node 0xE3E5AEF592 (.node 0xE3E5AEEF92 (.leaf 0x970) (.leaf 0x18C7)) (.node 0xE3F65B0E71 (.leaf 0x18CB) (.leaf 0x2253)))) (.node 0xE406039FD7 (.node 0xE4018DFE91 (.node 0xE400170D2F (.leaf 0x1D022) (.leaf 0x2E8A)) (.node 0xE4049357E5 (.leaf 0xFE95) (.leaf 0x1D96C))) (.node 0xE41458326C (.node 0xE40BDABB19 (.leaf 0x158E) (.leaf 0x1F9D)) (.node 0xE41592ED53 (.leaf 0xF30) (.leaf 0x11A9A))))) (nameTree_1666)
def nameTree_1668 : NameTree := .node 0xE47A173CA5 (.node 0xE46DAD35CD (.node 0xE45FF3F1CB (.node 0xE44A890164 (.leaf 0x1F969) (.node 0xE450FAF615 (.leaf 0x1D46) (.leaf 0x1372))) (.node 0xE4690EC36E (.node 0xE461CA9EF3 (.leaf 0x1D87F) (.leaf 0x1F9D8)) (.node 0xE46CD87D66 (.leaf 0x1F4B) (.leaf 0x1F67C)))) (.node 0xE47257A315 (.node 0xE470C2FEBC (.node 0xE46F6217AB (.leaf 0x10863) (.leaf 0x619)) (.node 0xE4721BF87A (.leaf 0x118E8) (.leaf 0x21B8))) (.node 0xE4765D1859 (.node 0xE475671A0C (.leaf 0x16F1B) (.leaf 0x61A)) (.node 0xE479B2D2A1 (.leaf 0x618) (.leaf 0x1DA14))))) (.node 0xE48501A50B (.node 0xE480074884 (.node 0xE47FDF1768 (.leaf 0xA723) (.node 0xE47FEC2A08 (.leaf 0xFB95) (.leaf 0x2918))) (.node 0xE48057A315 (.node 0xE48043922E (.leaf 0xFEDC) (.leaf 0xFED8)) (.node 0xE48069A315 (.leaf 0x16F2F) (.leaf 0x16F2B)))) (.node 0xE489D2DF02 (.node 0xE48883BE56 (.node 0xE487E7A129 (.leaf 0x1200D) (.leaf 0x10877)) (.node 0xE4888AB965 (.leaf 0x1B03B) (.leaf 0x1B07D))) (.node 0xE48A9FC835 (.node 0xE48A9FC635 (.leaf 0xF89) (.leaf 0x109A)) (.node 0xE48C15A70B (.leaf 0x109B) (.leaf 0x12370)))))
def nameTree_1669 : NameTree := .node 0xE4F96C9B0B (.node 0xE4DBF3B8C6 (.node 0xE4C4FEC085 (.node 0xE4BB5A3F3C (.leaf 0x31A) (.leaf 0x2138)) (.node 0xE4D723C39E (.leaf 0x4D1) (.leaf 0xFC46))) (.node 0xE4E5F22AC1 (.node 0xE4E55988E5 (.leaf 0xD88) (.leaf 0x1F015)) (.node 0xE4F92D0C56 (.leaf 0xF0B) (.leaf 0x1D1E1)))) (.node 0xE500E6656D (.node 0xE4FC2B4E34 (.node 0xE4FB15103E (.leaf 0x1208F) (.leaf 0xFCE5)) (.node 0xE4FD809B0B (.leaf 0x118EC) (.leaf 0x124A9))) (.node 0xE5056C950B (.node 0xE5026C990B (.leaf 0x297F) (.leaf 0x124AA)) (.node 0xE505738E0B (.leaf 0x12091) (.leaf 0x12092))))
def nameTree_1670 : NameTree := .node 0xE4B1D7AAB5 (.node 0xE4979CC8FC (.node 0xE49230480B (.node 0xE48DBB7F8E (.leaf 0x1F89B) (.node 0xE48F7085C2 (.leaf 0x845) (.leaf 0x1F364))) (.node 0xE493B29D1C (.node 0xE49293BEFC (.leaf 0x12027) (.leaf 0x2411)) (.node 0xE4943B4B0B (.leaf 0x1D17B) (.leaf 0x12028)))) (.node 0xE4A7055F7E (.node 0xE4A361A20B (.node 0xE4A1444EDD (.leaf 0x2412) (.leaf 0x258D)) (.node 0xE4A6C80EE0 (.leaf 0x1204B) (.leaf 0x26A6))) (.node 0xE4ACDA8C31 (.node 0xE4AB56E092 (.leaf 0x1EA7) (.leaf 0x257B)) (.node 0xE4AD117DFB (.leaf 0x29CC) (.leaf 0x10AD0))))) (nameTree_1669)
def nameTree_1671 : NameTree := .node 0xE53B4F1418 (.node 0xE52E238C59 (.node 0xE52E03E7FE (.node 0xE52B98706C (.leaf 0x1BC6) (.leaf 0x3237)) (.node 0xE52E21A059 (.leaf 0x11065) (.leaf 0x32C6))) (.node 0xE53A7FD37C (.node 0xE534222087 (.leaf 0x32C5) (.leaf 0x2ED4)) (.node 0xE53A7FD97C (.leaf 0x117D) (.leaf 0x117E)))) (.node 0xE54ED9980B (.node 0xE54209CD45 (.node 0xE53FF5E3F0 (.leaf 0x2409) (.leaf 0x1F563)) (.node 0xE5421A1F87 (.leaf 0x2527) (.leaf 0x2ED0))) (.node 0xE55195863B (.node 0xE54FC7940B (.leaf 0x1212E) (.leaf 0x12130)) (.node 0xE5520369F1 (.leaf 0x318D) (.leaf 0x1F79C))))
def nameTree_1672 : NameTree := .node 0xE52B47D306 (.node 0xE51C03998A (.node 0xE50C56F188 (.node 0xE50A73F3A7 (.leaf 0xE45) (.node 0xE50B42DB7A (.leaf 0x16C9) (.leaf 0x11642))) (.node 0xE5135D852F (.node 0xE50EB9B543 (.leaf 0x1D88B) (.leaf 0x2B1D)) (.node 0xE515369877 (.leaf 0x11CA3) (.leaf 0x1D197)))) (.node 0xE51C11B18A (.node 0xE51C0BA18A (.node 0xE51C0399E1 (.leaf 0x1523) (.leaf 0x1568)) (.node 0xE51C11A78A (.leaf 0x151B) (.leaf 0x151F))) (.node 0xE52075578C (.node 0xE51E0CB2BD (.leaf 0x18C2) (.leaf 0x16874)) (.node 0xE523B59EEC (.leaf 0x1F4F9) (.leaf 0x22A))))) (nameTree_1671)
def nameTree_1673 : NameTree := .node 0xE587A460D2 (.node 0xE57666A04E (.node 0xE576229F5D (.node 0xE57622995D (.leaf 0xA5E1) (.leaf 0xA524)) (.node 0xE57622A55D (.leaf 0xA5BA) (.leaf 0xA595))) (.node 0xE5829B56D2 (.node 0xE57946B1C4 (.leaf 0x1F530) (.leaf 0x2C2E)) (.node 0xE5869669D2 (.leaf 0x661) (.leaf 0x666)))) (.node 0xE59E7F4FB2 (.node 0xE59743C02C (.node 0xE591CDDE4D (.leaf 0x662) (.leaf 0xFEA7)) (.node 0xE59749C02C (.leaf 0x10C9E) (.leaf 0x10CAD))) (.node 0xE5A3E0284E (.node 0xE5A336F581 (.leaf 0x12441) (.leaf 0x2A42)) (.node 0xE5A69909C3 (.leaf 0x16809) (.leaf 0x1F652))))
def nameTree_1674 : NameTree := .node 0xE57622955D (.node 0xE56AD05262 (.node 0xE560CE950B (.node 0xE558CF9E0B (.leaf 0x12132) (.node 0xE55BDB9E0B (.leaf 0x12133) (.leaf 0x12134))) (.node 0xE5663AD861 (.node 0xE56380FD48 (.leaf 0x12135) (.leaf 0x1D8F6)) (.node 0xE5670898AD (.leaf 0x4DF5) (.leaf 0x212E)))) (.node 0xE56F81611A (.node 0xE56D9FEDCD (.node 0xE56BD408ED (.leaf 0x2937) (.leaf 0x1F00F)) (.node 0xE56DA94ECD (.leaf 0x1086B) (.leaf 0x1086F))) (.node 0xE571C57277 (.node 0xE56FC2C261 (.leaf 0x965) (.leaf 0x25A6)) (.node 0xE57622915D (.leaf 0x23FB) (.leaf 0xA549))))) (nameTree_1673)
def nameTree_1675 : NameTree := .node 0xE5B8951D0B (.node 0xE5B4EF9BC1 (.node 0xE5B3A2160B (.node 0xE5B1E50C14 (.leaf 0x12383) (.leaf 0x115DA)) (.node 0xE5B47696E6 (.leaf 0x1217B) (.leaf 0xFCE1))) (.node 0xE5B895090B (.node 0xE5B88E1A0B (.leaf 0x1D8F3) (.leaf 0x1217F)) (.node 0xE5B8950D0B (.leaf 0x12180) (.leaf 0x12181)))) (.node 0xE5BAA0100B (.node 0xE5B98E1A0B (.node 0xE5B8960F0B (.leaf 0x12183) (.leaf 0x12184)) (.node 0xE5BA9EFA0B (.leaf 0x12186) (.leaf 0x12387))) (.node 0xE5C76E600B (.node 0xE5C654C70C (.leaf 0x1218B) (.leaf 0x2CFB)) (.node 0xE5CD2148FD (.leaf 0x121FC) (.leaf 0x109D6))))
def nameTree_1676 : NameTree := .node 0xE5B1A2150B (.node 0xE5AD9E4759 (.node 0xE5AC8E140B (.node 0xE5A78E1A0B (.leaf 0x1215C) (.node 0xE5A87A940B (.leaf 0x1215E) (.leaf 0x121A1))) (.node 0xE5ACA20C0B (.node 0xE5AC8E1A0B (.leaf 0x12163) (.leaf 0x12165)) (.node 0xE5AD86C238 (.leaf 0x12381) (.leaf 0x45D)))) (.node 0xE5B02AEB68 (.node 0xE5AEF00845 (.node 0xE5AE94110B (.leaf 0x1F7C0) (.leaf 0x1216D)) (.node 0xE5AEF60E45 (.leaf 0x18C9) (.leaf 0x18CD))) (.node 0xE5B0960C0B (.node 0xE5B08E130B (.leaf 0xFB9) (.leaf 0x1216F)) (.node 0xE5B0B0F95A (.leaf 0x12171) (.leaf 0x1C87))))) (nameTree_1675)
def nameTree_1677 : NameTree := .node 0xE63D4CC974 (.node 0xE63C6677F9 (.node 0xE6367C7E09 (.node 0xE635A70D3B (.leaf 0x1D7B2) (.leaf 0xA981)) (.node 0xE638BCC72F (.leaf 0x1D03B) (.leaf 0x2E01))) (.node 0xE63D4CC774 (.node 0xE63D4CC674 (.leaf 0x12019) (.leaf 0x1069)) (.node 0xE63D4CC874 (.leaf 0x106A) (.leaf 0x106B)))) (.node 0xE6407D8C48 (.node 0xE63D912360 (.node 0xE63D4CCA74 (.leaf 0x106C) (.leaf 0x106D)) (.node 0xE63F9BD4AD (.leaf 0x11C43) (.leaf 0x1F609))) (.node 0xE641DB4A82 (.node 0xE641578106 (.leaf 0x20F0) (.leaf 0x1F49D)) (.node 0xE641FC5406 (.leaf 0x2241) (.leaf 0xFC26))))
def nameTree_1678 : NameTree := .node 0xE62E8CC4BF (.node 0xE5F2CD11F6 (.node 0xE5D8BFA4AB (.node 0xE5D57CEA88 (.leaf 0x1F942) (.node 0xE5D82F2EE4 (.leaf 0x2FA4) (.leaf 0x819))) (.node 0xE5F0EE9478 (.node 0xE5E2A94298 (.leaf 0x203D) (.leaf 0x1F01E)) (.node 0xE5F211C05D (.leaf 0x1F605) (.leaf 0x16C8)))) (.node 0xE61CE331EA (.node 0xE608E8BF9B (.node 0xE604940AA7 (.leaf 0x2A77) (.leaf 0x1161B)) (.node 0xE6147D40FD (.leaf 0xA8D3) (.leaf 0x224A))) (.node 0xE624C23D40 (.node 0xE61E1394EF (.leaf 0xA7B4) (.leaf 0x2793)) (.node 0xE626B9DC02 (.leaf 0x4DD2) (.leaf 0x1D96))))) (nameTree_1677)
def nameTree_1679 : NameTree := .node 0xE6B8706EAD (.node 0xE6AE5FFA8E (.node 0xE6AA64E78E (.node 0xE69C25D866 (.leaf 0x23C8) (.leaf 0x252F)) (.node 0xE6ACF17EF0 (.leaf 0x1D7F7) (.leaf 0x1F582))) (.node 0xE6B0AC3F06 (.node 0xE6AF6DF18E (.leaf 0x1D7FC) (.leaf 0x1D7F8)) (.node 0xE6B15630E7 (.leaf 0x10A6B) (.leaf 0x21EA)))) (.node 0xE6CEFF3235 (.node 0xE6BD415891 (.node 0xE6B9A85C75 (.leaf 0x2B77) (.leaf 0x109DA)) (.node 0xE6C38C5FB5 (.leaf 0x65A) (.leaf 0x16B6D))) (.node 0xE6CF672B7B (.node 0xE6CF27582D (.leaf 0x2B9A) (.leaf 0x1F5FE)) (.node 0xE6CF90BF0B (.leaf 0xF15) (.leaf 0x12315))))
def nameTree_1680 : NameTree := .node 0xE69605555D (.node 0xE661D987D9 (.node 0xE64F0DF570 (.node 0xE648350998 (.leaf 0x299C) (.node 0xE64EB300DB (.leaf 0xA788) (.leaf 0xC6F))) (.node 0xE65B306C79 (.node 0xE65B306AC6 (.leaf 0x1F646) (.leaf 0xA613)) (.node 0xE65EA202EB (.leaf 0xA614) (.leaf 0x3034)))) (.node 0xE6719E3C29 (.node 0xE66C6FD777 (.node 0xE66B5FDE92 (.leaf 0x2AD3) (.leaf 0x10A53)) (.node 0xE66DD5BD5A (.leaf 0x10101) (.leaf 0x1F74E))) (.node 0xE676C166B3 (.node 0xE675230330 (.leaf 0x193B) (.leaf 0x22D1)) (.node 0xE6866E0CE9 (.leaf 0x1D158) (.leaf 0x2264))))) (nameTree_1679)
def nameTree_1681 : NameTree := .node 0xE719EFC0A7 (.node 0xE70A44746B (.node 0xE705149646 (.node 0xE6FDEBC982 (.leaf 0xFD3D) (.leaf 0xA8D8)) (.node 0xE707C01049 (.leaf 0x1F878) (.leaf 0x336A))) (.node 0xE70D6C9749 (.node 0xE70C5F27AB (.leaf 0x1F6C5) (.leaf 0x233E)) (.node 0xE7105829C3 (.leaf 0x2A8F) (.leaf 0xF2C)))) (.node 0xE727EB3F27 (.node 0xE726FF4667 (.node 0xE721625276 (.leaf 0xFCB0) (.leaf 0x26DC)) (.node 0xE726FFF268 (.leaf 0x3318) (.leaf 0x306))) (.node 0xE72CFBA99B (.node 0xE7284D0CEA (.leaf 0x1F682) (.leaf 0x10A0C)) (.node 0xE72D8EA0B4 (.leaf 0x1F796) (.leaf 0x1D943))))
def nameTree_1682 : NameTree := .node 0xE6FAB2B003 (.node 0xE6E944D99E (.node 0xE6E05722DA (.node 0xE6DB20260E (.leaf 0xF16) (.node 0xE6DC3BDDD9 (.leaf 0x2F18) (.leaf 0x1F52D))) (.node 0xE6E4A41CB6 (.node 0xE6E49253B7 (.leaf 0x11AF6) (.leaf 0xFDBB)) (.node 0xE6E5FB5DC6 (.leaf 0x2402) (.leaf 0x32B5)))) (.node 0xE6E958ED9E (.node 0xE6E944ED9E (.node 0xE6E944E19E (.leaf 0x111B3) (.leaf 0x111BD)) (.node 0xE6E94CE19E (.leaf 0x111BF) (.leaf 0x111B5))) (.node 0xE6F149E1F4 (.node 0xE6EC3B1EE3 (.leaf 0x111B7) (.leaf 0x94D)) (.node 0xE6F6D1FAE8 (.leaf 0x11D47) (.leaf 0x1F956))))) (nameTree_1681)
def nameTree_1683 : NameTree := .node 0xE1508794C2 (.node 0xDFF971F548 (.node 0xDDF5607221 (.node 0xDD1B56DEFE (.node 0xDCB0F46FBE (nameTree_1626) (nameTree_1628)) (.node 0xDD905073F0 (nameTree_1630) (nameTree_1632))) (.node 0xDEE3EA9F7B (.node 0xDE54BA0DDB (nameTree_1633) (nameTree_1635)) (.node 0xDF8EBE5D8B (nameTree_1637) (nameTree_1639)))) (.node 0xE0A3DE1D96 (.node 0xE08DE642E2 (.node 0xE03C201F87 (nameTree_1640) (nameTree_1642)) (.node 0xE09FE50596 (nameTree_1644) (nameTree_1646))) (.node 0xE0ACDE1D96 (.node 0xE0A6EC1D96 (nameTree_1647) (nameTree_1649)) (.node 0xE108A787F2 (nameTree_1651) (nameTree_1653))))) (.node 0xE447F8F6A9 (.node 0xE2AC461E76 (.node 0xE20336CC09 (.node 0xE19AEEDDE2 (nameTree_1654) (nameTree_1656)) (.node 0xE24A6EFFE9 (nameTree_1658) (nameTree_1660))) (.node 0xE3586007B3 (.node 0xE3164249B8 (nameTree_1661) (nameTree_1663)) (.node 0xE3D95CE291 (nameTree_1665) (nameTree_1667)))) (.node 0xE5A78E0C0B (.node 0xE5071BAC11 (.node 0xE48C92EC1E (nameTree_1668) (nameTree_1670)) (.node 0xE554C7940B (nameTree_1672) (nameTree_1674))) (.node 0xE64368CFCA (.node 0xE5CFA7BB12 (nameTree_1676) (nameTree_1678)) (.node 0xE6D06D3594 (nameTree_1680) (nameTree_1682)))))
def nameTree_1684 : NameTree := .node 0xE74441E3D6 (.node 0xE73B018C5D (.node 0xE72ED21B48 (.node 0xE72E5D637E (.leaf 0x118C1) (.node 0xE72E5D6D7E (.leaf 0x118C8) (.leaf 0x118C9))) (.node 0xE73A18EBD7 (.node 0xE734742182 (.leaf 0x1B21) (.leaf 0x22D5)) (.node 0xE73AFF499B (.leaf 0xA9D5) (.leaf 0x3346)))) (.node 0xE73DFA058B (.node 0xE73B0697F7 (.node 0xE73B048B5D (.leaf 0x331D) (.leaf 0x333E)) (.node 0xE73B72C40B (.leaf 0x3339) (.leaf 0xFC6A))) (.node 0xE74017F8D7 (.node 0xE73E9DED37 (.leaf 0x206E) (.leaf 0xFDF1)) (.node 0xE7406C7BA0 (.leaf 0xA9D4) (.leaf 0x1E2F))))) (.node 0xE75E83DA45 (.node 0xE74F72464F (.node 0xE749879C8A (.leaf 0xFFED) (.node 0xE749A71F54 (.leaf 0x1F00C) (.leaf 0x12329))) (.node 0xE755FDEAD6 (.node 0xE75282DA6A (.leaf 0x1D052) (.leaf 0x3316)) (.node 0xE7598CD145 (.leaf 0x2243) (.leaf 0x1015A)))) (.node 0xE77948BFFF (.node 0xE7664778FC (.node 0xE760CED5AF (.leaf 0x10162) (.leaf 0x3366)) (.node 0xE76E57A315 (.leaf 0x1F86F) (.leaf 0x16F29))) (.node 0xE785D3DBFD (.node 0xE77DDE126D (.leaf 0x29CE) (.leaf 0x2A90)) (.node 0xE785E42D20 (.leaf 0xA806) (.leaf 0x12499)))))
def nameTree_1685 : NameTree := .node 0xE7BA34B005 (.node 0xE7BA2DBD05 (.node 0xE7BA2CB005 (.node 0xE7B5C5F55E (.leaf 0x1E9B) (.leaf 0xA946)) (.node 0xE7BA2DAD05 (.leaf 0x1BC13) (.leaf 0x1BC4B))) (.node 0xE7BA31AD05 (.node 0xE7BA30B405 (.leaf 0x1BC52) (.leaf 0x1BC16)) (.node 0xE7BA33B305 (.leaf 0x1BC48) (.leaf 0x1BC14)))) (.node 0xE7BA3AB005 (.node 0xE7BA37BD05 (.node 0xE7BA37A905 (.leaf 0x1BC17) (.leaf 0x1BC43)) (.node 0xE7BA37BF05 (.leaf 0x1BC5B) (.leaf 0x1BC5A))) (.node 0xE7BA3DB005 (.node 0xE7BA3CB005 (.leaf 0x1BC18) (.leaf 0x1BC11)) (.node 0xE7BA3DB105 (.leaf 0x1BC57) (.leaf 0x1BC4A))))
def nameTree_1686 : NameTree := .node 0xE7B498BAC2 (.node 0xE7986428C6 (.node 0xE78E9CE4F7 (.node 0xE78BF2D6D5 (.leaf 0x1DC4) (.node 0xE78CDE17FB (.leaf 0x230E) (.leaf 0x1D89A))) (.node 0xE79272B2AA (.node 0xE790F8FAF8 (.leaf 0x1EE) (.leaf 0x109B0)) (.node 0xE7965A28C6 (.leaf 0xB3C) (.leaf 0xD8F)))) (.node 0xE7AED0BD0C (.node 0xE7A0050B2F (.node 0xE79A8AA66E (.leaf 0xD8D) (.leaf 0x109EA)) (.node 0xE7A3466674 (.leaf 0x1F874) (.leaf 0x337F))) (.node 0xE7B01FB56C (.node 0xE7B01FAB6C (.leaf 0x349) (.leaf 0x19B5)) (.node 0xE7B01FBB6C (.leaf 0x19B7) (.leaf 0x19B3))))) (nameTree_1685)
def nameTree_1687 : NameTree := .node 0xE813A4F699 (.node 0xE804919ACE (.node 0xE7FA2041E5 (.node 0xE7F7D97AF7 (.leaf 0x4DD6) (.leaf 0x27DA)) (.node 0xE7FAA9405A (.leaf 0x1F5BE) (.leaf 0x1F819))) (.node 0xE8079DEED1 (.node 0xE8055B33AA (.leaf 0x1FBB) (.leaf 0xF31)) (.node 0xE8079DEFD1 (.leaf 0x26E0) (.leaf 0x26E1)))) (.node 0xE81985D8C3 (.node 0xE81984D7C3 (.node 0xE8197FE0C3 (.leaf 0x1BB9) (.leaf 0x1F191)) (.node 0xE81984EAC3 (.leaf 0x1F1A6) (.leaf 0x1F14A))) (.node 0xE8198ADBC3 (.node 0xE81989EAC3 (.leaf 0x1F194) (.leaf 0x1F14B)) (.node 0xE8198BDFC3 (.leaf 0x1F196) (.leaf 0x1F197))))
def nameTree_1688 : NameTree := .node 0xE7F724B321 (.node 0xE7BEF507B3 (.node 0xE7BA3FB705 (.node 0xE7BA3FB005 (.leaf 0x1BC5C) (.node 0xE7BA3FB105 (.leaf 0x1BC39) (.leaf 0x1BC5E))) (.node 0xE7BA41AD05 (.node 0xE7BA40BF05 (.leaf 0x1BC5D) (.leaf 0x1BC53)) (.node 0xE7BC4E86C8 (.leaf 0x1BC50) (.leaf 0xFD18)))) (.node 0xE7E79354A2 (.node 0xE7CE2A1B2C (.node 0xE7C4C7B5F3 (.leaf 0x1D032) (.leaf 0x2C54)) (.node 0xE7E7542860 (.leaf 0x1F89C) (.leaf 0x21C5))) (.node 0xE7EF16F752 (.node 0xE7E9D39F6E (.leaf 0x1EB) (.leaf 0x2CCB)) (.node 0xE7F31E1CFB (.leaf 0x1F66D) (.leaf 0x2E15))))) (nameTree_1687)
def nameTree_1689 : NameTree := .node 0xE86C29B9F1 (.node 0xE8547155DB (.node 0xE8484DDF46 (.node 0xE846CD813C (.leaf 0x1F95D) (.leaf 0x1F873)) (.node 0xE8500EBF59 (.leaf 0x8FF) (.leaf 0x1F6BE))) (.node 0xE8656AE660 (.node 0xE854F196E2 (.leaf 0x2242) (.leaf 0x2A0C)) (.node 0xE86AB7F6EB (.leaf 0x2B26) (.leaf 0x1EE1D)))) (.node 0xE880D8F644 (.node 0xE876905283 (.node 0xE86F080520 (.leaf 0x120DC) (.leaf 0x1F470)) (.node 0xE87B42074D (.leaf 0xFD0E) (.leaf 0x1D6C3))) (.node 0xE886074FAC (.node 0xE8835C1651 (.leaf 0x2298) (.leaf 0x6B0)) (.node 0xE89C16FF49 (.leaf 0x11C71) (.leaf 0x16B1))))
def nameTree_1690 : NameTree := .node 0xE841F34369 (.node 0xE82F578E11 (.node 0xE81993D7C3 (.node 0xE8198FE7C3 (.leaf 0x1F14C) (.node 0xE81992E7C3 (.leaf 0x1F14D) (.leaf 0x1F19A))) (.node 0xE8254EE9E9 (.node 0xE8238FB259 (.leaf 0x1F14F) (.leaf 0x82D)) (.node 0xE82E4615AA (.leaf 0x2CDD) (.leaf 0x2507)))) (.node 0xE834820132 (.node 0xE832504AC8 (.node 0xE8324F4FC8 (.leaf 0x16810) (.leaf 0x1243A)) (.node 0xE833B3261C (.leaf 0x1243B) (.leaf 0x1DA5A))) (.node 0xE83878213D (.node 0xE835594689 (.leaf 0x2634) (.leaf 0x11EC)) (.node 0xE83DA99263 (.leaf 0x1F557) (.leaf 0x318B))))) (nameTree_1689)
def nameTree_1691 : NameTree := .node 0xE8D8B86E80 (.node 0xE8CB11DE2B (.node 0xE8AEE8B3A3 (.node 0xE8A30F493F (.leaf 0x2E20) (.node 0xE8A43F363C (.leaf 0x1F9E1) (.leaf 0xAB56))) (.node 0xE8B3AB6001 (.node 0xE8B10A5FE7 (.leaf 0x21A4) (.leaf 0x1084F)) (.node 0xE8BC3FF830 (.leaf 0x2738) (.leaf 0x1F3DB)))) (.node 0xE8D2423827 (.node 0xE8D241C396 (.node 0xE8CFC70870 (.leaf 0x8DA) (.leaf 0x1D95)) (.node 0xE8D242006B (.leaf 0x11DD) (.leaf 0x11B3))) (.node 0xE8D31B228E (.node 0xE8D2432149 (.leaf 0x11C7) (.leaf 0x11B9)) (.node 0xE8D88413B8 (.leaf 0x1F517) (.leaf 0x168C7))))) (.node 0xE90660C303 (.node 0xE8F11EF0E7 (.node 0xE8E262A828 (.leaf 0x1D9F2) (.node 0xE8E5A5593D (.leaf 0x1F3B0) (.leaf 0x1DA00))) (.node 0xE8FA85D1D6 (.node 0xE8F3EFCCBA (.leaf 0x1013D) (.leaf 0x295A)) (.node 0xE904D1095F (.leaf 0x2526) (.leaf 0x60B)))) (.node 0xE91370D490 (.node 0xE90D11A7E1 (.node 0xE909469988 (.leaf 0x1D03) (.leaf 0x12233)) (.node 0xE90D199DE1 (.leaf 0x18E9) (.leaf 0x18E8))) (.node 0xE91F171A13 (.node 0xE91C75F35F (.leaf 0x1F338) (.leaf 0x1F828)) (.node 0xE9255A5DDD (.leaf 0x1E83D) (.leaf 0x1D937)))))
def nameTree_1692 : NameTree := .node 0xE98BF1483F (.node 0xE967A5C93C (.node 0xE95D3410CC (.node 0xE953A79CCE (.leaf 0xFFE0) (.leaf 0xF80)) (.node 0xE964A550F7 (.leaf 0x1E34) (.leaf 0x1147))) (.node 0xE980D77E3B (.node 0xE97DE07284 (.leaf 0x1F631) (.leaf 0x2970)) (.node 0xE9814AC8D5 (.leaf 0x11599) (.leaf 0x331)))) (.node 0xE98BF3483F (.node 0xE98BF15C3F (.node 0xE98BF1503F (.leaf 0xC86) (.leaf 0xC90)) (.node 0xE98BF2483F (.leaf 0xC94) (.leaf 0xCAC))) (.node 0xE98BF54C3F (.node 0xE98BF4483F (.leaf 0xC9A) (.leaf 0xCA6)) (.node 0xE98BF6483F (.leaf 0xC8F) (.leaf 0xCDE))))
def nameTree_1693 : NameTree := .node 0xE94EE4B258 (.node 0xE92F9F9040 (.node 0xE92A295A5F (.node 0xE926F58E7C (.leaf 0x12175) (.node 0xE927028A7C (.leaf 0x12176) (.leaf 0x12177))) (.node 0xE92EEEBBBE (.node 0xE92EE8B5BE (.leaf 0x1681C) (.leaf 0x11361)) (.node 0xE92F75B2AF (.leaf 0x11360) (.leaf 0xFC81)))) (.node 0xE93D769E9F (.node 0xE932B1873F (.node 0xE931DF3AC1 (.leaf 0xA8F6) (.leaf 0x1D755)) (.node 0xE93A1F2EDE (.leaf 0x2B24) (.leaf 0x1F420))) (.node 0xE9451DAEC9 (.node 0xE9403AD2D5 (.leaf 0x359) (.leaf 0x26FE)) (.node 0xE947E34021 (.leaf 0x1680) (.leaf 0xFD36))))) (nameTree_1692)
def nameTree_1694 : NameTree := .node 0xE9AFFFC4AE (.node 0xE992F57AE3 (.node 0xE99091844F (.node 0xE98C1E251B (.leaf 0xCAF) (.leaf 0x1F5E9)) (.node 0xE990D63B82 (.leaf 0xDA5) (.leaf 0x2268))) (.node 0xE99D1559E7 (.node 0xE9982BAFA7 (.leaf 0x102E9) (.leaf 0x10B3C)) (.node 0xE9AE54D9F3 (.leaf 0x10841) (.leaf 0x169AD)))) (.node 0xE9B6B2ABE4 (.node 0xE9B3075AC8 (.node 0xE9B16D1B7A (.leaf 0x211E) (.leaf 0x2CFC)) (.node 0xE9B6B2AAE4 (.leaf 0x2378) (.leaf 0x1F711))) (.node 0xE9C8D7F017 (.node 0xE9C887B8C6 (.leaf 0x1F712) (.leaf 0x120BA)) (.node 0xE9CADF9B0D (.leaf 0x1061B) (.leaf 0x235D))))
def nameTree_1695 : NameTree := .node 0xE98C09483F (.node 0xE98BFE483F (.node 0xE98BFA483F (.node 0xE98BF8483F (.leaf 0xC97) (.node 0xE98BF9503F (.leaf 0xCB9) (.leaf 0xC88))) (.node 0xE98BFC483F (.node 0xE98BFB483F (.leaf 0xC9C) (.leaf 0xC95)) (.node 0xE98BFD483F (.leaf 0xCB2) (.leaf 0xCAE)))) (.node 0xE98C03483F (.node 0xE98C00483F (.node 0xE98BFF563F (.leaf 0xCA8) (.leaf 0xC93)) (.node 0xE98C02483F (.leaf 0xCAA) (.leaf 0xCB0))) (.node 0xE98C055C3F (.node 0xE98C04483F (.leaf 0xCB8) (.leaf 0xCA4)) (.node 0xE98C06483F (.leaf 0xC8A) (.leaf 0xCB5))))) (nameTree_1694)
def nameTree_1696 : NameTree := .node 0xEA0B569B08 (.node 0xEA0B529F08 (.node 0xEA0B509B08 (.node 0xEA0B4F9B08 (.leaf 0xA90A) (.leaf 0xA91C)) (.node 0xEA0B519B08 (.leaf 0xA917) (.leaf 0xA914))) (.node 0xEA0B539B08 (.node 0xEA0B52A908 (.leaf 0xA923) (.leaf 0xA925)) (.node 0xEA0B559B08 (.leaf 0xA915) (.leaf 0xA91A)))) (.node 0xEA0B5C9B08 (.node 0xEA0B599B08 (.node 0xEA0B579B08 (.leaf 0xA90E) (.leaf 0xA912)) (.node 0xEA0B5A9B08 (.leaf 0xA920) (.leaf 0xA91D))) (.node 0xEA12D8EB79 (.node 0xEA0B5D9B08 (.leaf 0xA91B) (.leaf 0xA910)) (.node 0xEA161A0BE3 (.leaf 0x2508) (.leaf 0x188E))))
def nameTree_1697 : NameTree := .node 0xEA0B4E9B08 (.node 0xE9F9F52809 (.node 0xE9F46C3D66 (.node 0xE9D6804770 (.leaf 0x2398) (.node 0xE9EF29448B (.leaf 0x1F343) (.leaf 0x118F2))) (.node 0xE9F9EB3409 (.node 0xE9F9EA3409 (.leaf 0x33F8) (.leaf 0x1D7B5)) (.node 0xE9F9ED2809 (.leaf 0x1D7B6) (.leaf 0x1D7B9)))) (.node 0xEA0B469B08 (.node 0xE9FE2C8150 (.node 0xE9FA6B4A66 (.leaf 0x1D7B7) (.leaf 0x33F7)) (.node 0xEA0B459B08 (.leaf 0x20E5) (.leaf 0xA919))) (.node 0xEA0B4A9B08 (.node 0xEA0B479B08 (.leaf 0xA921) (.leaf 0xA918)) (.node 0xEA0B4B9B08 (.leaf 0xA90C) (.leaf 0xA91F))))) (nameTree_1696)
def nameTree_1698 : NameTree := .node 0xEA357A3421 (.node 0xEA219D6042 (.node 0xEA1B619FF4 (.node 0xEA1769E8B1 (.leaf 0x336B) (.node 0xEA176FDE8C (.leaf 0x1B5D) (.leaf 0x16BA))) (.node 0xEA201D0BE3 (.node 0xEA1F7A8917 (.leaf 0x1482) (.leaf 0x2355)) (.node 0xEA20240BE3 (.leaf 0x188A) (.leaf 0x188F)))) (.node 0xEA262A0BE3 (.node 0xEA25290BE3 (.node 0xEA221E0BE3 (.leaf 0xFB49) (.leaf 0x1893)) (.node 0xEA25B1EEC0 (.leaf 0x1894) (.leaf 0x16D9))) (.node 0xEA2E052762 (.node 0xEA2C1E0BE3 (.leaf 0x188C) (.leaf 0x1895)) (.node 0xEA325DD476 (.leaf 0x3301) (.leaf 0x25C3))))) (.node 0xEA3E38F312 (.node 0xEA380F2187 (.node 0xEA36F7D91A (.leaf 0x1F5B2) (.node 0xEA37FC97C3 (.leaf 0xFC38) (.leaf 0x3312))) (.node 0xEA3E34F212 (.node 0xEA38FDFD42 (.leaf 0x2EDA) (.leaf 0x2343)) (.node 0xEA3E34FC12 (.leaf 0x10C81) (.leaf 0x10C94)))) (.node 0xEA3E38F712 (.node 0xEA3E38F512 (.node 0xEA3E38F412 (.leaf 0x10C82) (.leaf 0x10C84)) (.node 0xEA3E38F612 (.leaf 0x10C87) (.leaf 0x10C8B))) (.node 0xEA3E38F912 (.node 0xEA3E38F812 (.leaf 0x10C8C) (.leaf 0x10C8D)) (.node 0xEA3E38FB12 (.leaf 0x10C8F) (.leaf 0x10C92)))))
def nameTree_1699 : NameTree := .node 0xEA791D98FF (.node 0xEA521DD2D2 (.node 0xEA421C2287 (.node 0xEA41BF4592 (.leaf 0x7E8) (.leaf 0x7EA)) (.node 0xEA48BC8921 (.leaf 0x2ED3) (.leaf 0x27A2))) (.node 0xEA6BADD0F8 (.node 0xEA557B4118 (.leaf 0x1DA55) (.leaf 0x27AE)) (.node 0xEA77C89DCF (.leaf 0x4DF) (.leaf 0xA8E9)))) (.node 0xEA89C37C3C (.node 0xEA888CC765 (.node 0xEA7C648262 (.leaf 0xFC09) (.leaf 0x248A)) (.node 0xEA89C20229 (.leaf 0x1B06D) (.leaf 0x1D994))) (.node 0xEA8EA25046 (.node 0xEA8D2D54D3 (.leaf 0x2373) (.leaf 0x1F700)) (.node 0xEA9184AB9C (.leaf 0x1EEA2) (.leaf 0x1F392))))
def nameTree_1700 : NameTree := .node 0xEA41B74592 (.node 0xEA3E390512 (.node 0xEA3E38FF12 (.node 0xEA3E38FD12 (.leaf 0x10C93) (.node 0xEA3E38FE12 (.leaf 0x10C96) (.leaf 0x10C98))) (.node 0xEA3E390312 (.node 0xEA3E390112 (.leaf 0x10C99) (.leaf 0x10CA0)) (.node 0xEA3E390412 (.leaf 0x10CA2) (.leaf 0x10CA4)))) (.node 0xEA3E430012 (.node 0xEA3E390B12 (.node 0xEA3E390712 (.leaf 0x10CA6) (.leaf 0x10CAE)) (.node 0xEA3E3CFA12 (.leaf 0x10CAF) (.leaf 0x10C91))) (.node 0xEA3E490612 (.node 0xEA3E490412 (.leaf 0x10C9C) (.leaf 0x10CB2)) (.node 0xEA40B67860 (.leaf 0x10CAB) (.leaf 0x11235))))) (nameTree_1699)
def nameTree_1701 : NameTree := .node 0xEAE53140BB (.node 0xEAE33D6F24 (.node 0xEADBD1976E (.node 0xEAD5B54746 (.leaf 0x1064F) (.leaf 0x1F650)) (.node 0xEADEE14417 (.leaf 0x2CB9) (.leaf 0x2234))) (.node 0xEAE33D7924 (.node 0xEAE33D7324 (.leaf 0x1C2C) (.leaf 0x1C27)) (.node 0xEAE33D7F24 (.leaf 0x1C28) (.leaf 0x1C2A)))) (.node 0xEAF216A17A (.node 0xEAE853147F (.node 0xEAE65050E2 (.leaf 0x7F8) (.leaf 0xFC0C)) (.node 0xEAE89AAF0D (.leaf 0x59E) (.leaf 0xF8))) (.node 0xEAF251C37A (.node 0xEAF234327A (.leaf 0x4C5) (.leaf 0x4CD)) (.node 0xEAF9C197AC (.leaf 0x4C9) (.leaf 0x10A45))))
def nameTree_1702 : NameTree := .node 0xEAC9D0F117 (.node 0xEAAF84FADE (.node 0xEAA34CAA48 (.node 0xEA97136C9C (.leaf 0x312E) (.node 0xEA9795C5C1 (.leaf 0x12488) (.leaf 0x1F5EC))) (.node 0xEAA53D8ADE (.node 0xEAA3E80492 (.leaf 0x1F44C) (.leaf 0x10140)) (.node 0xEAABB4A0F7 (.leaf 0x1F10A) (.leaf 0x2989)))) (.node 0xEABB117DFB (.node 0xEAB9572055 (.node 0xEAB3D39590 (.leaf 0x2511) (.leaf 0xB56)) (.node 0xEABAE60AEA (.leaf 0x10166) (.leaf 0x1F5FC))) (.node 0xEAC8CFF017 (.node 0xEAC6D5EC08 (.leaf 0x10ADE) (.leaf 0x104D)) (.node 0xEAC916797A (.leaf 0x1064A) (.leaf 0x10190))))) (nameTree_1701)
def nameTree_1703 : NameTree := .node 0xEB61F6F62D (.node 0xEB3A5A8182 (.node 0xEB35A10C5B (.node 0xEB2E2E52A5 (.leaf 0x1BC91) (.leaf 0x1FD2)) (.node 0xEB37A51A7C (.leaf 0x1D0E6) (.leaf 0x2768))) (.node 0xEB5BB938D2 (.node 0xEB3F447D9C (.leaf 0x1D1AD) (.leaf 0x1D97C)) (.node 0xEB605B32FB (.leaf 0x112EA) (.leaf 0x22ED)))) (.node 0xEB68F5552D (.node 0xEB63F3A72D (.node 0xEB62A07A1A (.leaf 0xE14) (.leaf 0x23A9)) (.node 0xEB65FC572D (.leaf 0xE1F) (.leaf 0xE2B))) (.node 0xEB6C23F3F0 (.node 0xEB6BFA5F2D (.leaf 0xE01) (.leaf 0xE13)) (.node 0xEB6C2BEFF0 (.leaf 0x10ED) (.leaf 0x10E9))))
def nameTree_1704 : NameTree := .node 0xEB29CD7DDD (.node 0xEB08F9F518 (.node 0xEB01FBB56A (.node 0xEB00E478E5 (.leaf 0x48E) (.node 0xEB018AB523 (.leaf 0x6E5) (.leaf 0x1F7A8))) (.node 0xEB02E869E5 (.node 0xEB0274CF0D (.leaf 0x16F50) (.leaf 0x1EAD)) (.node 0xEB06A41862 (.leaf 0x6E6) (.leaf 0x26E8)))) (.node 0xEB0C6D497C (.node 0xEB0C0B9FD7 (.node 0xEB0C0397D7 (.leaf 0x1F5F) (.leaf 0x1676)) (.node 0xEB0C11A5D7 (.leaf 0x1672) (.leaf 0x1674))) (.node 0xEB18B2AE40 (.node 0xEB0FD7C9FA (.leaf 0x1F6AD) (.leaf 0x6D2)) (.node 0xEB296843E3 (.leaf 0x111CC) (.leaf 0x2984))))) (nameTree_1703)
def nameTree_1705 : NameTree := .node 0xEB7693B2FC (.node 0xEB75AB9BDB (.node 0xEB710C052D (.node 0xEB6F4EC6DF (.leaf 0xE1B) (.node 0xEB700BAE2D (.leaf 0x1144A) (.leaf 0xE23))) (.node 0xEB7554D7B2 (.node 0xEB71F86A2D (.leaf 0xE2A) (.leaf 0xE15)) (.node 0xEB75A4CFDB (.leaf 0x4A7) (.leaf 0x301C)))) (.node 0xEB7689B2FC (.node 0xEB7684B2FC (.node 0xEB7683B2FC (.leaf 0x3030) (.leaf 0x1BCF)) (.node 0xEB7688B2FC (.leaf 0x1BC3) (.leaf 0x1BDF))) (.node 0xEB768EB2FC (.node 0xEB768CB2FC (.leaf 0x1BD5) (.leaf 0x1BC8)) (.node 0xEB768FB2FC (.leaf 0x1BD3) (.leaf 0x1BD9))))) (.node 0xEB80EA569C (.node 0xEB7B704B30 (.node 0xEB7695B2FC (.leaf 0x1BCC) (.node 0xEB76FA192D (.leaf 0x1BDC) (.leaf 0xE22))) (.node 0xEB7BE14C9C (.node 0xEB7B7E8496 (.leaf 0xE007E) (.leaf 0xA71)) (.node 0xEB7FDC5F9C (.leaf 0x967) (.leaf 0x96C)))) (.node 0xEB919E4B46 (.node 0xEB8FC87E4E (.node 0xEB8B383D4A (.leaf 0x968) (.leaf 0x1F6B9)) (.node 0xEB8FE6599E (.leaf 0x8B1) (.leaf 0x2379))) (.node 0xEB9A35F505 (.node 0xEB9641198B (.leaf 0x1EEB7) (.leaf 0x1E29)) (.node 0xEBA1D1DA6D (.leaf 0x230F) (.leaf 0xAAD)))))
def nameTree_1706 : NameTree := .node 0xEBB3770D8A (.node 0xEBB1147DFB (.node 0xEBAE8B1238 (.node 0xEBAE8B118A (.leaf 0x16A2B) (.leaf 0x168BC)) (.node 0xEBAFD1DA6D (.leaf 0x169B4) (.leaf 0xAAB))) (.node 0xEBB2D1DA6D (.node 0xEBB28D4015 (.leaf 0x10AE1) (.leaf 0x1D0F4)) (.node 0xEBB2DCDA6D (.leaf 0xAB6) (.leaf 0xAB7)))) (.node 0xEBB37B1FDC (.node 0xEBB3771CDC (.node 0xEBB3771933 (.leaf 0x168A9) (.leaf 0x16860)) (.node 0xEBB37B1B8F (.leaf 0x16850) (.leaf 0x16A26))) (.node 0xEBB37B20E1 (.node 0xEBB37B208A (.leaf 0x16833) (.leaf 0x168C9)) (.node 0xEBB37B2138 (.leaf 0x16904) (.leaf 0x169B7))))
def nameTree_1707 : NameTree := .node 0xEBAE851A8F (.node 0xEBADD0DA6D (.node 0xEBA6D1DA6D (.node 0xEBA3CDDA6D (.leaf 0xA9B) (.node 0xEBA3D1DA6D (.leaf 0xAA1) (.leaf 0xAA7))) (.node 0xEBAAD1DA6D (.node 0xEBA9D1DA6D (.leaf 0xA98) (.leaf 0xA9D)) (.node 0xEBABD5DA6D (.leaf 0xA96) (.leaf 0xAB3)))) (.node 0xEBAE771E38 (.node 0xEBADE2DA6D (.node 0xEBADD7DA6D (.leaf 0xA99) (.leaf 0xAA3)) (.node 0xEBAE770DE1 (.leaf 0xA9E) (.leaf 0x16965))) (.node 0xEBAE7B1238 (.node 0xEBAE7B1133 (.leaf 0x16A01) (.leaf 0x16885)) (.node 0xEBAE851A38 (.leaf 0x169EB) (.leaf 0x169D3))))) (nameTree_1706)
def nameTree_1708 : NameTree := .node 0xEBB5771E38 (.node 0xEBB4851E8F (.node 0xEBB4851DE1 (.node 0xEBB4851A38 (.leaf 0x168ED) (.leaf 0x1697B)) (.node 0xEBB4851E38 (.leaf 0x1695F) (.leaf 0x169F8))) (.node 0xEBB5771238 (.node 0xEBB48B19E1 (.leaf 0x16A2E) (.leaf 0x1691E)) (.node 0xEBB5771D38 (.leaf 0x169B8) (.leaf 0x1698B)))) (.node 0xEBB5851B38 (.node 0xEBB57B1B38 (.node 0xEBB578158A (.leaf 0x169FC) (.leaf 0x168DD)) (.node 0xEBB57C1BE1 (.leaf 0x169FA) (.leaf 0x1691D))) (.node 0xEBB6771238 (.node 0xEBB58C1638 (.leaf 0x169FF) (.leaf 0x169C9)) (.node 0xEBB6771CDC (.leaf 0x169C5) (.leaf 0x16855))))
def nameTree_1709 : NameTree := .node 0xEBB47F1D8A (.node 0xEBB3D1DA6D (.node 0xEBB38B1AE1 (.node 0xEBB37F1D33 (.leaf 0x16A17) (.node 0xEBB3860E8F (.leaf 0x1688D) (.leaf 0x16A36))) (.node 0xEBB38B208A (.node 0xEBB38B1DE1 (.leaf 0x1693A) (.leaf 0x1693F)) (.node 0xEBB38B2138 (.leaf 0x168CE) (.leaf 0x169CC)))) (.node 0xEBB4771D38 (.node 0xEBB477198A (.node 0xEBB3DDDA6D (.leaf 0xAA5) (.leaf 0xA9F)) (.node 0xEBB4771C8A (.leaf 0x168C5) (.leaf 0x168B6))) (.node 0xEBB47B2033 (.node 0xEBB4771E38 (.leaf 0x16969) (.leaf 0x169D9)) (.node 0xEBB47B20E1 (.leaf 0x16889) (.leaf 0x16930))))) (nameTree_1708)
def nameTree_1710 : NameTree := .node 0xEBB92BC35D (.node 0xEBB88B1238 (.node 0xEBB87F1CE1 (.node 0xEBB87F1A8A (.leaf 0x1682A) (.leaf 0x168EE)) (.node 0xEBB87F2033 (.leaf 0x1692D) (.leaf 0x16867))) (.node 0xEBB88B1BDC (.node 0xEBB88B1A38 (.leaf 0x169E9) (.leaf 0x16991)) (.node 0xEBB88B1DE1 (.leaf 0x1682D) (.leaf 0x1695D)))) (.node 0xEBBA7B128F (.node 0xEBBA771238 (.node 0xEBB9D1DA6D (.leaf 0xBC) (.leaf 0xAF9)) (.node 0xEBBA771E38 (.leaf 0x169F0) (.leaf 0x1696E))) (.node 0xEBBA7F15E1 (.node 0xEBBA7B1B8F (.leaf 0x16A07) (.leaf 0x16A31)) (.node 0xEBBA7F168F (.leaf 0x1694E) (.leaf 0x16A0B))))
def nameTree_1711 : NameTree := .node 0xEBB87B1FDC (.node 0xEBB68F168F (.node 0xEBB68015E1 (.node 0xEBB67B19DC (.leaf 0x168EC) (.node 0xEBB67D0E38 (.leaf 0x16854) (.leaf 0x169F2))) (.node 0xEBB68F14DC (.node 0xEBB6890D8A (.leaf 0x168F3) (.leaf 0x168BE)) (.node 0xEBB68F15E1 (.leaf 0x1684F) (.leaf 0x1694D)))) (.node 0xEBB8771CE1 (.node 0xEBB6E93D5E (.node 0xEBB6900D8A (.leaf 0x16A09) (.leaf 0x16890)) (.node 0xEBB8770E38 (.leaf 0x1F51E) (.leaf 0x1696C))) (.node 0xEBB87B128F (.node 0xEBB87B11E1 (.leaf 0x16935) (.leaf 0x1695A)) (.node 0xEBB87B1A8A (.leaf 0x16A22) (.leaf 0x168EF))))) (nameTree_1710)
def nameTree_1712 : NameTree := .node 0xEBBB8B1133 (.node 0xEBBB7E1C38 (.node 0xEBBB771CE1 (.node 0xEBBB00C14A (.leaf 0x1683A) (.node 0xEBBB770E38 (.leaf 0x2229) (.leaf 0x16985))) (.node 0xEBBB7B1238 (.node 0xEBBB771DE1 (.leaf 0x16907) (.leaf 0x16964)) (.node 0xEBBB7B2138 (.leaf 0x16976) (.leaf 0x16990)))) (.node 0xEBBB851A38 (.node 0xEBBB7E21E1 (.node 0xEBBB7E1C8F (.leaf 0x169F3) (.leaf 0x16A29)) (.node 0xEBBB7E228F (.leaf 0x16958) (.leaf 0x16A1C))) (.node 0xEBBB851FDC (.node 0xEBBB851CDC (.leaf 0x1696D) (.leaf 0x1683C)) (.node 0xEBBB8520E1 (.leaf 0x1684B) (.leaf 0x16924))))) (.node 0xEBBC770E8F (.node 0xEBBB8B21E1 (.node 0xEBBB8B11E1 (.leaf 0x1687D) (.node 0xEBBB8B20DC (.leaf 0x16903) (.leaf 0x16815))) (.node 0xEBBBF8266B (.node 0xEBBB8B228F (.leaf 0x16952) (.leaf 0x16A12)) (.node 0xEBBC770E38 (.leaf 0x1D86F) (.leaf 0x169DB)))) (.node 0xEBBC771E38 (.node 0xEBBC77128F (.node 0xEBBC7711E1 (.leaf 0x16A0E) (.leaf 0x1694B)) (.node 0xEBBC771A38 (.leaf 0x16A08) (.leaf 0x16972))) (.node 0xEBBC7B208A (.node 0xEBBC7B1B38 (.leaf 0x169DC) (.leaf 0x16A00)) (.node 0xEBBC7B218F (.leaf 0x168F0) (.leaf 0x16A35)))))
def nameTree_1713 : NameTree := .node 0xEBC5D5DF8B (.node 0xEBC18B198A (.node 0xEBC17F2138 (.node 0xEBC17B1AE1 (.leaf 0x169AC) (.leaf 0x1690D)) (.node 0xEBC1851E8F (.leaf 0x169AE) (.leaf 0x16A1B))) (.node 0xEBC18B1E38 (.node 0xEBC18B1B38 (.leaf 0x16891) (.leaf 0x169E5)) (.node 0xEBC4BFAD8F (.leaf 0x169E4) (.leaf 0x241)))) (.node 0xEBDC5B3CA9 (.node 0xEBD9F3547B (.node 0xEBD07CE553 (.leaf 0x1FA8) (.leaf 0x335F)) (.node 0xEBDBE6CD01 (.leaf 0xFBD4) (.leaf 0x1163E))) (.node 0xEBE15245A9 (.node 0xEBE0564FA9 (.leaf 0x11C5A) (.leaf 0x11C5F)) (.node 0xEBE1552350 (.leaf 0x11C63) (.leaf 0x1F4AA))))
def nameTree_1714 : NameTree := .node 0xEBC1771D38 (.node 0xEBBE7B1238 (.node 0xEBBC851E38 (.node 0xEBBC851C38 (.leaf 0x169FD) (.node 0xEBBC851DE1 (.leaf 0x16979) (.leaf 0x1694C))) (.node 0xEBBDC9C33A (.node 0xEBBC8B1A38 (.leaf 0x169D6) (.leaf 0x169AA)) (.node 0xEBBE7B10DC (.leaf 0x2529) (.leaf 0x16852)))) (.node 0xEBBF8B128F (.node 0xEBBF771CE1 (.node 0xEBBE851A38 (.leaf 0x169EC) (.leaf 0x1696A)) (.node 0xEBBF8B1238 (.leaf 0x168F2) (.leaf 0x169EA))) (.node 0xEBBF8B1C8A (.node 0xEBBF8B1C38 (.leaf 0x16A21) (.leaf 0x16975)) (.node 0xEBC1770D8A (.leaf 0x168D1) (.leaf 0x168D9))))) (nameTree_1713)
def nameTree_1715 : NameTree := .node 0xEC616EA577 (.node 0xEC402552A1 (.node 0xEC3381EB79 (.node 0xEC30BCF9F7 (.leaf 0x12A) (.leaf 0x2B1B)) (.node 0xEC34E45B64 (.leaf 0x4DDF) (.leaf 0x2194))) (.node 0xEC48F74124 (.node 0xEC4100FB10 (.leaf 0x903) (.leaf 0x1F19D)) (.node 0xEC4FC9DCD7 (.leaf 0x193A) (.leaf 0x2E06)))) (.node 0xEC64789277 (.node 0xEC636E9477 (.node 0xEC626EA477 (.leaf 0x2E86) (.leaf 0x2EA7)) (.node 0xEC64769277 (.leaf 0x2EA8) (.leaf 0x2EB8))) (.node 0xEC6E68A315 (.node 0xEC6CB85CE6 (.leaf 0x2EAB) (.leaf 0x1D9DE)) (.node 0xEC6E6B9177 (.leaf 0x16F19) (.leaf 0x2EB9))))
def nameTree_1716 : NameTree := .node 0xEC22C794A4 (.node 0xEC0455D3AE (.node 0xEBEC93BA41 (.node 0xEBE3182CB8 (.leaf 0x11C5B) (.node 0xEBE792DC40 (.leaf 0x12382) (.leaf 0x2361))) (.node 0xEBF7C453FC (.node 0xEBF1851856 (.leaf 0x1D95C) (.leaf 0x2ABD)) (.node 0xEBFFEAD5CF (.leaf 0xA6F7) (.leaf 0x121C7)))) (.node 0xEC0F370719 (.node 0xEC09F2A571 (.node 0xEC077AF2E2 (.leaf 0x33D) (.leaf 0xFE41)) (.node 0xEC0C23F901 (.leaf 0x2CEF) (.leaf 0x2995))) (.node 0xEC1CDD37EA (.node 0xEC1B619FF4 (.leaf 0x2308) (.leaf 0x14BA)) (.node 0xEC2069C1AF (.leaf 0xA726) (.leaf 0x3365))))) (nameTree_1715)
def nameTree_1717 : NameTree := .node 0xEC90D40956 (.node 0xEC8DDD1056 (.node 0xEC8DDD0956 (.node 0xEC8DDD0356 (.leaf 0x13C7) (.leaf 0x13C8)) (.node 0xEC8DDD0F56 (.leaf 0x13C9) (.leaf 0x13CA))) (.node 0xEC90D3FF56 (.node 0xEC90D3FB56 (.leaf 0x13CB) (.leaf 0x13DD)) (.node 0xEC90D40356 (.leaf 0x13DE) (.leaf 0x13DF)))) (.node 0xEC90DAFF56 (.node 0xEC90D41056 (.node 0xEC90D40F56 (.leaf 0x13E0) (.leaf 0x13E1)) (.node 0xEC90DAFB56 (.leaf 0x13E2) (.leaf 0x13E3))) (.node 0xEC90DB0956 (.node 0xEC90DB0356 (.leaf 0x13E4) (.leaf 0x13E5)) (.node 0xEC90DB0F56 (.leaf 0x13E6) (.leaf 0x13E7))))
def nameTree_1718 : NameTree := .node 0xEC8DDCFF56 (.node 0xEC84D5FB56 (.node 0xEC799123C1 (.node 0xEC71609D77 (.leaf 0x2EB7) (.node 0xEC72749B77 (.leaf 0x2E99) (.leaf 0x2E9C))) (.node 0xEC80B5C3D7 (.node 0xEC79912FC1 (.leaf 0x1772) (.leaf 0x1773)) (.node 0xEC80D3FB56 (.leaf 0x1F3A3) (.leaf 0x13DC)))) (.node 0xEC8ACDA189 (.node 0xEC89332A5F (.node 0xEC8630CA18 (.leaf 0x13BF) (.leaf 0x1F35)) (.node 0xEC8AC90256 (.leaf 0x20BB) (.leaf 0x13C0))) (.node 0xEC8C5111B3 (.node 0xEC8BD12787 (.leaf 0xB66) (.leaf 0xA75A)) (.node 0xEC8DDCFB56 (.leaf 0x1D9BA) (.leaf 0x13C6))))) (nameTree_1717)
def nameTree_1719 : NameTree := .node 0xEC9E110563 (.node 0xEC9E0B1163 (.node 0xEC9E080963 (.node 0xEC940DA24E (.leaf 0x13E8) (.node 0xEC95099828 (.leaf 0x16B60) (.leaf 0x22E5))) (.node 0xEC9E0B0A63 (.node 0xEC9E0A0963 (.leaf 0x411) (.leaf 0x414)) (.node 0xEC9E0B1063 (.leaf 0x424) (.leaf 0x41B)))) (.node 0xEC9E0E0563 (.node 0xEC9E0B1663 (.node 0xEC9E0B1263 (.leaf 0x41C) (.leaf 0x41D)) (.node 0xEC9E0B1763 (.leaf 0x420) (.leaf 0x421))) (.node 0xEC9E0F1363 (.node 0xEC9E0F0963 (.leaf 0x425) (.leaf 0x415)) (.node 0xEC9E100963 (.leaf 0x401) (.leaf 0x408))))) (.node 0xEC9E1D0963 (.node 0xEC9E170563 (.node 0xEC9E151863 (.leaf 0x41A) (.node 0xEC9E160963 (.leaf 0x47E) (.leaf 0x41F))) (.node 0xEC9E1B0F63 (.node 0xEC9E1A0963 (.leaf 0x51A) (.leaf 0x422)) (.node 0xEC9E1C0963 (.leaf 0x478) (.leaf 0x412)))) (.node 0xEC9E1F1963 (.node 0xEC9E1F0D63 (.node 0xEC9E1F0563 (.leaf 0x51C) (.leaf 0x42F)) (.node 0xEC9E1F1263 (.leaf 0x407) (.leaf 0xA65E))) (.node 0xEC9F88093B (.node 0xEC9E200963 (.leaf 0x42E) (.leaf 0x417)) (.node 0xECA145E692 (.leaf 0x10149) (.leaf 0x2578)))))
def nameTree_1720 : NameTree := .node 0xECE837828D (.node 0xECCCA34546 (.node 0xECC7E0966F (.node 0xECC7D2F117 (.leaf 0x10664) (.leaf 0x10665)) (.node 0xECC7EDC766 (.leaf 0x24F6) (.leaf 0x2FF2))) (.node 0xECCDB366BA (.node 0xECCD30A74C (.leaf 0xD9E) (.leaf 0x11A3)) (.node 0xECDB40C32F (.leaf 0x1F3CD) (.leaf 0x1F4E5)))) (.node 0xED01773A68 (.node 0xECEFC49098 (.node 0xECE8423D0D (.leaf 0x25F2) (.leaf 0x1D97B)) (.node 0xED00A21AA5 (.leaf 0x1E2) (.leaf 0x26C0))) (.node 0xED0A4DFF62 (.node 0xED0A44D59B (.leaf 0x2E0D) (.leaf 0x1F5E4)) (.node 0xED0E491262 (.leaf 0xA67) (.leaf 0xA6C))))
def nameTree_1721 : NameTree := .node 0xECC7D2F017 (.node 0xECC2D78C6F (.node 0xECAA435444 (.node 0xECAA435044 (.leaf 0x1D7C3) (.node 0xECAA435244 (.leaf 0x16DB) (.leaf 0x16C0))) (.node 0xECB40A83FB (.node 0xECAB75BBB9 (.leaf 0x16D4) (.leaf 0x1F4E1)) (.node 0xECBEAC3F06 (.leaf 0x10AE2) (.leaf 0x10A64)))) (.node 0xECC6D8EF17 (.node 0xECC31109F0 (.node 0xECC30709F0 (.leaf 0x24F5) (.leaf 0x1BAC)) (.node 0xECC6D29F6F (.leaf 0x1BAD) (.leaf 0x24FA))) (.node 0xECC6D8F117 (.node 0xECC6D8F017 (.leaf 0x1065D) (.leaf 0x1065E)) (.node 0xECC7D2EF17 (.leaf 0x1065F) (.leaf 0x10663))))) (nameTree_1720)
def nameTree_1722 : NameTree := .node 0xED2C8BA86C (.node 0xED26E331EA (.node 0xED24C6DF98 (.node 0xED1E9F0E8C (.leaf 0x140F) (.leaf 0x1413)) (.node 0xED26C78120 (.leaf 0x1F027) (.leaf 0x1D995))) (.node 0xED2C8BA06C (.node 0xED2C1FA4C1 (.leaf 0x196) (.leaf 0x12087)) (.node 0xED2C8BA46C (.leaf 0x3041) (.leaf 0x3047)))) (.node 0xED347F5F42 (.node 0xED2C8BB46C (.node 0xED2C8BAE6C (.leaf 0x3043) (.leaf 0x3049)) (.node 0xED3469B125 (.leaf 0x3045) (.leaf 0x1D98E))) (.node 0xED36EACBD6 (.node 0xED3656A002 (.leaf 0x329D) (.leaf 0x1F495)) (.node 0xED4690A015 (.leaf 0x1F5C9) (.leaf 0x1F353))))
def nameTree_1723 : NameTree := .node 0xED1E9F088C (.node 0xED1E94048C (.node 0xED15F282D6 (.node 0xED0FB25054 (.leaf 0xA68) (.node 0xED1541294A (.leaf 0x25F5) (.leaf 0x1FE7))) (.node 0xED1B619FF4 (.node 0xED19CB0ECC (.leaf 0xFD7A) (.leaf 0x1F024)) (.node 0xED1E94008C (.leaf 0x14CF) (.leaf 0x154D)))) (.node 0xED1E9A088C (.node 0xED1E9A008C (.node 0xED1E940E8C (.leaf 0x1544) (.leaf 0x154A)) (.node 0xED1E9A048C (.leaf 0x158D) (.leaf 0x158A))) (.node 0xED1E9F008C (.node 0xED1E9A0E8C (.leaf 0x158B) (.leaf 0x158C)) (.node 0xED1E9F048C (.leaf 0x1418) (.leaf 0x140D))))) (nameTree_1722)
def nameTree_1724 : NameTree := .node 0xED89118FAC (.node 0xED78010C4E (.node 0xED6FE5ABA1 (.node 0xED6D369F60 (.leaf 0xBE) (.leaf 0x121DC)) (.node 0xED756152C9 (.leaf 0x4DD0) (.leaf 0x1687B))) (.node 0xED7ED07F74 (.node 0xED7BD62A3E (.leaf 0x1009A) (.leaf 0x1D8A0)) (.node 0xED7ED4BF26 (.leaf 0x1F5F4) (.leaf 0x1234A)))) (.node 0xED93048BAC (.node 0xED8ED9F634 (.node 0xED8EA25046 (.leaf 0x196C) (.leaf 0x1EEAC)) (.node 0xED90EBE434 (.leaf 0x1D04C) (.leaf 0x1373))) (.node 0xED97B81AD9 (.node 0xED96038BAC (.leaf 0x1960) (.leaf 0x1952)) (.node 0xED98048BAC (.leaf 0x10163) (.leaf 0x195A))))
def nameTree_1725 : NameTree := .node 0xED620E8E33 (.node 0xED54AC5C58 (.node 0xED54AC4AED (.node 0xED48FD9CD4 (.leaf 0x261A) (.node 0xED4CF2358C (.leaf 0x11142) (.leaf 0x1D9D4))) (.node 0xED54AC5906 (.node 0xED54AC51A0 (.leaf 0x110D) (.leaf 0x1158)) (.node 0xED54AC59AA (.leaf 0x1119) (.leaf 0x1114)))) (.node 0xED5D3C9E56 (.node 0xED5AAF1806 (.node 0xED5972D2D4 (.leaf 0x1108) (.leaf 0x12364)) (.node 0xED5C553206 (.leaf 0x2975) (.leaf 0xC7F))) (.node 0xED60DF2A5B (.node 0xED5D4FDAE3 (.leaf 0x1F106) (.leaf 0x2415)) (.node 0xED61A39D6C (.leaf 0x1D917) (.leaf 0xA71F))))) (nameTree_1724)
def nameTree_1726 : NameTree := .node 0xEDC5743CA2 (.node 0xEDB4AF3F06 (.node 0xED9C048BAC (.node 0xED9AA34002 (.leaf 0xFC44) (.node 0xED9BA339E4 (.leaf 0x1FBA) (.leaf 0x1F09))) (.node 0xEDA3D96170 (.node 0xED9C0F8BAC (.leaf 0x1957) (.leaf 0x1953)) (.node 0xEDB1157DFB (.leaf 0x121EE) (.leaf 0x10ACE)))) (.node 0xEDC4E2BDF6 (.node 0xEDC4E2B5F6 (.node 0xEDB85728DD (.leaf 0x10A67) (.leaf 0xFC5B)) (.node 0xEDC4E2B9F6 (.leaf 0x10980) (.leaf 0x10981))) (.node 0xEDC57434A2 (.node 0xEDC4E2C3F6 (.leaf 0x10982) (.leaf 0x10983)) (.node 0xEDC57438A2 (.leaf 0xA823) (.leaf 0xA826))))) (.node 0xEDCBE02F61 (.node 0xEDCBE02B61 (.node 0xEDC57448A2 (.leaf 0xA824) (.node 0xEDCBE02A61 (.leaf 0xA825) (.leaf 0x24B6))) (.node 0xEDCBE02D61 (.node 0xEDCBE02C61 (.leaf 0x24B7) (.leaf 0x24B8)) (.node 0xEDCBE02E61 (.leaf 0x24B9) (.leaf 0x24BA)))) (.node 0xEDCBE03361 (.node 0xEDCBE03161 (.node 0xEDCBE03061 (.leaf 0x24BB) (.leaf 0x24BC)) (.node 0xEDCBE03261 (.leaf 0x24BD) (.leaf 0x24BE))) (.node 0xEDCBE03561 (.node 0xEDCBE03461 (.leaf 0x24BF) (.leaf 0x24C0)) (.node 0xEDCBE03661 (.leaf 0x24C1) (.leaf 0x24C2)))))
def nameTree_1727 : NameTree := .node 0xEE1E54E275 (.node 0xEE12988DD2 (.node 0xEE048D4E8F (.node 0xEDF1D28CB9 (.leaf 0x1D91C) (.leaf 0xA78A)) (.node 0xEE099F1244 (.leaf 0x1F0AA) (.leaf 0x110F7))) (.node 0xEE1E54E075 (.node 0xEE1E54DF75 (.leaf 0x1F0BA) (.leaf 0x1D622)) (.node 0xEE1E54E175 (.leaf 0x1D623) (.leaf 0x1D624)))) (.node 0xEE1E54E675 (.node 0xEE1E54E475 (.node 0xEE1E54E375 (.leaf 0x1D625) (.leaf 0x1D626)) (.node 0xEE1E54E575 (.leaf 0x1D627) (.leaf 0x1D628))) (.node 0xEE1E54E875 (.node 0xEE1E54E775 (.leaf 0x1D629) (.leaf 0x1D62A)) (.node 0xEE1E54E975 (.leaf 0x1D62B) (.leaf 0x1D62C))))
def nameTree_1728 : NameTree := .node 0xEDE20DD701 (.node 0xEDCBE03E61 (.node 0xEDCBE03A61 (.node 0xEDCBE03861 (.leaf 0x24C3) (.node 0xEDCBE03961 (.leaf 0x24C4) (.leaf 0x24C5))) (.node 0xEDCBE03C61 (.node 0xEDCBE03B61 (.leaf 0x24C6) (.leaf 0x24C7)) (.node 0xEDCBE03D61 (.leaf 0x24C8) (.leaf 0x24C9)))) (.node 0xEDCBE04261 (.node 0xEDCBE04061 (.node 0xEDCBE03F61 (.leaf 0x24CA) (.leaf 0x24CB)) (.node 0xEDCBE04161 (.leaf 0x24CC) (.leaf 0x24CD))) (.node 0xEDD5EB5C33 (.node 0xEDCBE04361 (.leaf 0x24CE) (.leaf 0x24CF)) (.node 0xEDE09CC441 (.leaf 0x61F) (.leaf 0x1F5EF))))) (nameTree_1727)
def nameTree_1729 : NameTree := .node 0xEE3B1D7B7D (.node 0xEE33381168 (.node 0xEE2BC83784 (.node 0xEE242B3977 (.leaf 0xA77E) (.leaf 0xFCBA)) (.node 0xEE324F8D37 (.leaf 0x1F029) (.leaf 0x2BBD))) (.node 0xEE3B1D717D (.node 0xEE3B1D6D7D (.leaf 0x11D36) (.leaf 0x1260)) (.node 0xEE3B1D757D (.leaf 0x1265) (.leaf 0x1262)))) (.node 0xEE3B1E757D (.node 0xEE3B1E6D7D (.node 0xEE3B1D817D (.leaf 0x1266) (.leaf 0x1261)) (.node 0xEE3B1E717D (.leaf 0x1278) (.leaf 0x127D))) (.node 0xEE3B1E817D (.node 0xEE3B1E7B7D (.leaf 0x127A) (.leaf 0x127E)) (.node 0xEE3B1F6D7D (.leaf 0x1279) (.leaf 0x12F0))))
def nameTree_1730 : NameTree := .node 0xEE20773DCC (.node 0xEE1E54F175 (.node 0xEE1E54ED75 (.node 0xEE1E54EB75 (.leaf 0x1D62D) (.node 0xEE1E54EC75 (.leaf 0x1D62E) (.leaf 0x1D62F))) (.node 0xEE1E54EF75 (.node 0xEE1E54EE75 (.leaf 0x1D630) (.leaf 0x1D631)) (.node 0xEE1E54F075 (.leaf 0x1D632) (.leaf 0x1D633)))) (.node 0xEE1E54F575 (.node 0xEE1E54F375 (.node 0xEE1E54F275 (.leaf 0x1D634) (.leaf 0x1D635)) (.node 0xEE1E54F475 (.leaf 0x1D636) (.leaf 0x1D637))) (.node 0xEE1E54F775 (.node 0xEE1E54F675 (.leaf 0x1D638) (.leaf 0x1D639)) (.node 0xEE1E54F875 (.leaf 0x1D63A) (.leaf 0x1D63B))))) (nameTree_1729)
def nameTree_1731 : NameTree := .node 0xEE3B25817D (.node 0xEE3B256D7D (.node 0xEE3B237B7D (.node 0xEE3B23757D (.leaf 0x1205) (.leaf 0x1202)) (.node 0xEE3B23817D (.leaf 0x1206) (.leaf 0x1201))) (.node 0xEE3B25757D (.node 0xEE3B25717D (.leaf 0x1300) (.leaf 0x1305)) (.node 0xEE3B257B7D (.leaf 0x1302) (.leaf 0x1306)))) (.node 0xEE3B267B7D (.node 0xEE3B26717D (.node 0xEE3B266D7D (.leaf 0x1301) (.leaf 0x12A8)) (.node 0xEE3B26757D (.leaf 0x12AD) (.leaf 0x12AA))) (.node 0xEE3B276D7D (.node 0xEE3B26817D (.leaf 0x12AE) (.leaf 0x12A9)) (.node 0xEE3B27717D (.leaf 0x1208) (.leaf 0x120D))))
def nameTree_1732 : NameTree := .node 0xEE3B23717D (.node 0xEE3B217B7D (.node 0xEE3B1F817D (.node 0xEE3B1F757D (.leaf 0x12F5) (.node 0xEE3B1F7B7D (.leaf 0x12F2) (.leaf 0x12F6))) (.node 0xEE3B21717D (.node 0xEE3B216D7D (.leaf 0x12F1) (.leaf 0x1348)) (.node 0xEE3B21757D (.leaf 0x134D) (.leaf 0x134A)))) (.node 0xEE3B22757D (.node 0xEE3B226D7D (.node 0xEE3B21817D (.leaf 0x134E) (.leaf 0x1349)) (.node 0xEE3B22717D (.leaf 0x1308) (.leaf 0x130D))) (.node 0xEE3B22817D (.node 0xEE3B227B7D (.leaf 0x130A) (.leaf 0x130E)) (.node 0xEE3B236D7D (.leaf 0x1309) (.leaf 0x1200))))) (nameTree_1731)
def nameTree_1733 : NameTree := .node 0xEE3B2D6D7D (.node 0xEE3B2C717D (.node 0xEE3B2B817D (.node 0xEE3B2B7B7D (.leaf 0x1352) (.leaf 0x1356)) (.node 0xEE3B2C6D7D (.leaf 0x1351) (.leaf 0x1240))) (.node 0xEE3B2C7B7D (.node 0xEE3B2C757D (.leaf 0x1245) (.leaf 0x1242)) (.node 0xEE3B2C817D (.leaf 0x1246) (.leaf 0x1241)))) (.node 0xEE3B2D817D (.node 0xEE3B2D757D (.node 0xEE3B2D717D (.leaf 0x1228) (.leaf 0x122D)) (.node 0xEE3B2D7B7D (.leaf 0x122A) (.leaf 0x122E))) (.node 0xEE3B2E717D (.node 0xEE3B2E6D7D (.leaf 0x1229) (.leaf 0x1230)) (.node 0xEE3B2E757D (.leaf 0x1235) (.leaf 0x1232))))
def nameTree_1734 : NameTree := .node 0xEE3B2B757D (.node 0xEE3B28817D (.node 0xEE3B286D7D (.node 0xEE3B277B7D (.leaf 0x120A) (.node 0xEE3B27817D (.leaf 0x120E) (.leaf 0x1209))) (.node 0xEE3B28757D (.node 0xEE3B28717D (.leaf 0x1218) (.leaf 0x121D)) (.node 0xEE3B287B7D (.leaf 0x121A) (.leaf 0x121E)))) (.node 0xEE3B297B7D (.node 0xEE3B29717D (.node 0xEE3B296D7D (.leaf 0x1219) (.leaf 0x1290)) (.node 0xEE3B29757D (.leaf 0x1295) (.leaf 0x1292))) (.node 0xEE3B2B6D7D (.node 0xEE3B29817D (.leaf 0x1296) (.leaf 0x1291)) (.node 0xEE3B2B717D (.leaf 0x1350) (.leaf 0x1355))))) (nameTree_1733)
def nameTree_1735 : NameTree := .node 0xEE3B34717D (.node 0xEE3B33757D (.node 0xEE3B336D7D (.node 0xEE3B32817D (.leaf 0x12CE) (.leaf 0x12C9)) (.node 0xEE3B33717D (.leaf 0x1280) (.leaf 0x1285))) (.node 0xEE3B33817D (.node 0xEE3B337B7D (.leaf 0x1282) (.leaf 0x1286)) (.node 0xEE3B346D7D (.leaf 0x1281) (.leaf 0x12E8)))) (.node 0xEE3B356D7D (.node 0xEE3B347B7D (.node 0xEE3B34757D (.leaf 0x12ED) (.leaf 0x12EA)) (.node 0xEE3B34817D (.leaf 0x12EE) (.leaf 0x12E9))) (.node 0xEE3B35757D (.node 0xEE3B35717D (.leaf 0x12D8) (.leaf 0x12DD)) (.node 0xEE3B357B7D (.leaf 0x12DA) (.leaf 0x12DE))))
def nameTree_1736 : NameTree := .node 0xEE3B327B7D (.node 0xEE3B316D7D (.node 0xEE3B2F717D (.node 0xEE3B2E817D (.leaf 0x1236) (.node 0xEE3B2F6D7D (.leaf 0x1231) (.leaf 0x1270))) (.node 0xEE3B2F7B7D (.node 0xEE3B2F757D (.leaf 0x1275) (.leaf 0x1272)) (.node 0xEE3B2F817D (.leaf 0x1276) (.leaf 0x1271)))) (.node 0xEE3B31817D (.node 0xEE3B31757D (.node 0xEE3B31717D (.leaf 0x1268) (.leaf 0x126D)) (.node 0xEE3B317B7D (.leaf 0x126A) (.leaf 0x126E))) (.node 0xEE3B32717D (.node 0xEE3B326D7D (.leaf 0x1269) (.leaf 0x12C8)) (.node 0xEE3B32757D (.leaf 0x12CD) (.leaf 0x12CA))))) (nameTree_1735)
def nameTree_1737 : NameTree := .node 0xEE98AC5146 (.node 0xEE8B33E576 (.node 0xEE7F57A315 (.node 0xEE7F55ED8B (.leaf 0x104A) (.leaf 0x122CD)) (.node 0xEE82BB8092 (.leaf 0x16F2D) (.leaf 0xFD94))) (.node 0xEE8FF8FD81 (.node 0xEE8B594B93 (.leaf 0x27D0) (.leaf 0xA9C2)) (.node 0xEE90238119 (.leaf 0x25B3) (.leaf 0x110C0)))) (.node 0xEEA3D42149 (.node 0xEE9D14F7EB (.node 0xEE9D0CD1E2 (.leaf 0x1EEAD) (.leaf 0x1F5A7)) (.node 0xEEA3793B62 (.leaf 0x17D3) (.leaf 0x2CBC))) (.node 0xEEB01FEB68 (.node 0xEEA718B4CC (.leaf 0xA766) (.leaf 0x1F79D)) (.node 0xEEB11FEB68 (.leaf 0xFAA) (.leaf 0xF9B))))
def nameTree_1738 : NameTree := .node 0xEE7F1B5ADB (.node 0xEE4E5B77E5 (.node 0xEE41034530 (.node 0xEE3C6700BF (.leaf 0x12D9) (.node 0xEE3CDF034F (.leaf 0x1F940) (.leaf 0x168D))) (.node 0xEE427FED83 (.node 0xEE42258108 (.leaf 0x27F5) (.leaf 0x1D827)) (.node 0xEE4CDC4F8E (.leaf 0x4DE2) (.leaf 0xB4)))) (.node 0xEE6D21F0DB (.node 0xEE62E08FF0 (.node 0xEE5D6595FD (.leaf 0x15D) (.leaf 0x10B5A)) (.node 0xEE69D07110 (.leaf 0x1B3B) (.leaf 0x10C8A))) (.node 0xEE7457A315 (.node 0xEE6D57A315 (.leaf 0x239D) (.leaf 0x16F24)) (.node 0xEE7C51065F (.leaf 0x16F15) (.leaf 0xFE7C))))) (nameTree_1737)
def nameTree_1739 : NameTree := .node 0xEF03A994D3 (.node 0xEEF2AE1998 (.node 0xEEF1995AC8 (.node 0xEEECA57635 (.leaf 0x32C) (.leaf 0xFE35)) (.node 0xEEF2AC1798 (.leaf 0xFD82) (.leaf 0xD7E))) (.node 0xEEF84595FD (.node 0xEEF2B21D98 (.leaf 0xD7A) (.leaf 0xD7C)) (.node 0xEF014EE605 (.leaf 0x47D) (.leaf 0x353)))) (.node 0xEF03A998D3 (.node 0xEF03A996D3 (.node 0xEF03A995D3 (.leaf 0x1DA77) (.leaf 0x1DA78)) (.node 0xEF03A997D3 (.leaf 0x1DA79) (.leaf 0x1DA7A))) (.node 0xEF03A99AD3 (.node 0xEF03A999D3 (.leaf 0x1DA7B) (.leaf 0x1DA7C)) (.node 0xEF14BE6B8C (.leaf 0x1DA7D) (.leaf 0x4D4))))
def nameTree_1740 : NameTree := .node 0xEEE9F6138B (.node 0xEECC7CDCAA (.node 0xEEB7A54506 (.node 0xEEB736C1B6 (.leaf 0x12521) (.node 0xEEB764B521 (.leaf 0x2063) (.leaf 0x2917))) (.node 0xEEC35C3211 (.node 0xEEC12EA3A0 (.leaf 0x10A66) (.leaf 0x145)) (.node 0xEECB64B774 (.leaf 0x978) (.leaf 0x10378)))) (.node 0xEEDE9DE277 (.node 0xEED5F62755 (.node 0xEED5AC0E96 (.leaf 0x335B) (.leaf 0xF36)) (.node 0xEED731B846 (.leaf 0x1F772) (.leaf 0x11A38))) (.node 0xEEE2D642AF (.node 0xEEE0EC3436 (.leaf 0x1F815) (.leaf 0x2903)) (.node 0xEEE3DDEA6C (.leaf 0xCD5) (.leaf 0xFF5C))))) (nameTree_1739)
def nameTree_1741 : NameTree := .node 0xEBBA8518DC (.node 0xEA16C27044 (.node 0xE8A1E0D5B7 (.node 0xE7BA3FA905 (.node 0xE78A54217E (nameTree_1684) (nameTree_1686)) (.node 0xE8198FD8C3 (nameTree_1688) (nameTree_1690))) (.node 0xE98BF7483F (.node 0xE926F29A7C (nameTree_1691) (nameTree_1693)) (.node 0xE9D24BE4D6 (nameTree_1695) (nameTree_1697)))) (.node 0xEB6E02002D (.node 0xEA965D041C (.node 0xEA3E38FC12 (nameTree_1698) (nameTree_1700)) (.node 0xEAFAC2067A (nameTree_1702) (nameTree_1704))) (.node 0xEBB37B218F (.node 0xEBA2D1DA6D (nameTree_1705) (nameTree_1707)) (.node 0xEBB6771D8A (nameTree_1709) (nameTree_1711))))) (.node 0xED98B81E12 (.node 0xEC90DB1056 (.node 0xEBE16446A9 (.node 0xEBBC7B2238 (nameTree_1712) (nameTree_1714)) (.node 0xEC71609A77 (nameTree_1716) (nameTree_1718))) (.node 0xED0F570962 (.node 0xECA31D8143 (nameTree_1719) (nameTree_1721)) (.node 0xED474E9BD8 (nameTree_1723) (nameTree_1725)))) (.node 0xEE3B27757D (.node 0xEE1E54EA75 (.node 0xEDCBE03761 (nameTree_1726) (nameTree_1728)) (.node 0xEE3B1F717D (nameTree_1730) (nameTree_1732))) (.node 0xEE3B35817D (.node 0xEE3B2E7B7D (nameTree_1734) (nameTree_1736)) (.node 0xEEB1A5380A (nameTree_1738) (nameTree_1740)))))
def nameTree_1742 : NameTree := .node 0xEF351A5988 (.node 0xEF253EAAC5 (.node 0xEF1897D37C (.node 0xEF1893C97C (.leaf 0x29C9) (.node 0xEF1897D2B0 (.leaf 0xD7B3) (.leaf 0x117C))) (.node 0xEF19279337 (.node 0xEF18ABC57C (.leaf 0xD7B4) (.leaf 0x1184)) (.node 0xEF24F1BA07 (.leaf 0x1F4A) (.leaf 0x118F0)))) (.node 0xEF2C0388EA (.node 0xEF2B2CCCA7 (.node 0xEF2B2CC4A7 (.leaf 0x1F572) (.leaf 0x2C7B)) (.node 0xEF2B2CD1A7 (.leaf 0xA7FA) (.leaf 0x1D1A))) (.node 0xEF3098894B (.node 0xEF2F3F4BD0 (.leaf 0x1D9C5) (.leaf 0x29C4)) (.node 0xEF32CAD6B4 (.leaf 0x12103) (.leaf 0x1F3CB))))) (.node 0xEF4EB51BC2 (.node 0xEF43C5D980 (.node 0xEF3563A99A (.leaf 0xA8FC) (.node 0xEF3A10EBD7 (.leaf 0x2775) (.leaf 0xA9D9))) (.node 0xEF4B76303F (.node 0xEF493878F8 (.leaf 0x2532) (.leaf 0x5A2)) (.node 0xEF4D94C95A (.leaf 0x595) (.leaf 0x336)))) (.node 0xEF639CA741 (.node 0xEF5308924A (.node 0xEF506C6F93 (.leaf 0x1B4A) (.leaf 0x1D34E)) (.node 0xEF5B6835A5 (.leaf 0x2B27) (.leaf 0x594))) (.node 0xEF68CEBDAB (.node 0xEF64161151 (.leaf 0x1E21) (.leaf 0x220D)) (.node 0xEF69288DA4 (.leaf 0x1D6DD) (.leaf 0x1DA48)))))
def nameTree_1743 : NameTree := .node 0xEF9413027A (.node 0xEF8A62D545 (.node 0xEF84E8A177 (.node 0xEF7D1C0EB1 (.leaf 0x121DB) (.leaf 0x121E9)) (.node 0xEF8542074D (.leaf 0x3CE) (.leaf 0x1D6CA))) (.node 0xEF8B7CF9BD (.node 0xEF8AE6C672 (.leaf 0x1DEA) (.leaf 0x1379)) (.node 0xEF8E282421 (.leaf 0x2948) (.leaf 0x16F6D)))) (.node 0xEF9C5BD269 (.node 0xEF98C4B0CD (.node 0xEF9585DDF9 (.leaf 0x260C) (.leaf 0x23BF)) (.node 0xEF98FD3B40 (.leaf 0x80B) (.leaf 0x30FE))) (.node 0xEF9E956EEC (.node 0xEF9D1559E7 (.leaf 0x2FD3) (.leaf 0x10847)) (.node 0xEF9F0357A0 (.leaf 0x12304) (.leaf 0x1F857))))
def nameTree_1744 : NameTree := .node 0xEF7D150FB1 (.node 0xEF7D0C18B1 (.node 0xEF7C09D7C3 (.node 0xEF7033B063 (.leaf 0x10E6) (.node 0xEF71D0AD66 (.leaf 0x1D8D1) (.leaf 0x1F7AD))) (.node 0xEF7D0818B1 (.node 0xEF7D0816B1 (.leaf 0x1F812) (.leaf 0x121BD)) (.node 0xEF7D0913B1 (.leaf 0x121BE) (.leaf 0x121C1)))) (.node 0xEF7D1017B1 (.node 0xEF7D0E13B1 (.node 0xEF7D0E0BB1 (.leaf 0x121C3) (.leaf 0x121C4)) (.node 0xEF7D0F0BB1 (.leaf 0x12388) (.leaf 0x121C8))) (.node 0xEF7D131FB1 (.node 0xEF7D1213B1 (.leaf 0x121CC) (.leaf 0x121CF)) (.node 0xEF7D140FB1 (.leaf 0x121D6) (.leaf 0x121D8))))) (nameTree_1743)
def nameTree_1745 : NameTree := .node 0xEFD9192D6D (.node 0xEFC6EC5767 (.node 0xEFC0C5762C (.node 0xEFBF8E9E6E (.leaf 0x114BD) (.leaf 0x10878)) (.node 0xEFC17FE691 (.leaf 0x75D) (.leaf 0x3360))) (.node 0xEFD54F2A47 (.node 0xEFD066D5C6 (.leaf 0x1F544) (.leaf 0xFDA6)) (.node 0xEFD8C084E9 (.leaf 0x1D850) (.leaf 0x22BA)))) (.node 0xEFE81A2E16 (.node 0xEFDC5FA31A (.node 0xEFDB483AF3 (.leaf 0x104B) (.leaf 0x2704)) (.node 0xEFE012606E (.leaf 0x3145) (.leaf 0xDF4))) (.node 0xEFEF4F4926 (.node 0xEFEBA6CFB3 (.leaf 0x32C4) (.leaf 0x2A4)) (.node 0xEFF2B2730B (.leaf 0x701) (.leaf 0x2B6))))
def nameTree_1746 : NameTree := .node 0xEFBDBFF746 (.node 0xEFA8C611A2 (.node 0xEFA3C4A91A (.node 0xEFA34F1E69 (.leaf 0x803) (.node 0xEFA3BF0DCA (.leaf 0x2F40) (.leaf 0x1D17D))) (.node 0xEFA50A4B47 (.node 0xEFA4E21A2B (.leaf 0x802) (.leaf 0xFCA2)) (.node 0xEFA56242FE (.leaf 0xFCA5) (.leaf 0x2F4E)))) (.node 0xEFB4B03F06 (.node 0xEFAEC1BE8E (.node 0xEFAC4AD89D (.leaf 0x1D31E) (.leaf 0x1F947)) (.node 0xEFB3E7C449 (.leaf 0xAA77) (.leaf 0xFCAC))) (.node 0xEFBD45651D (.node 0xEFB79D4E06 (.leaf 0x10A77) (.leaf 0x10A7B)) (.node 0xEFBDBFED46 (.leaf 0x735) (.leaf 0x114BA))))) (nameTree_1745)
def nameTree_1747 : NameTree := .node 0xF06C224981 (.node 0xF050A77064 (.node 0xF04BA68035 (.node 0xF0487E01FA (.leaf 0x114B7) (.leaf 0x114B5)) (.node 0xF050619A35 (.leaf 0x1F698) (.leaf 0x1F319))) (.node 0xF065306A18 (.node 0xF0629F3470 (.leaf 0x1F51C) (.leaf 0x2595)) (.node 0xF0653E3F02 (.leaf 0xA61B) (.leaf 0x26D)))) (.node 0xF07A478DC6 (.node 0xF071195281 (.node 0xF06C3DE7BA (.leaf 0x108FB) (.leaf 0x33FA)) (.node 0xF0727C3606 (.leaf 0x108FD) (.leaf 0x2422))) (.node 0xF0878D890B (.node 0xF07CEC9CDF (.leaf 0x1242F) (.leaf 0x216D)) (.node 0xF08A0DAC85 (.leaf 0xA70) (.leaf 0x1B65))))
def nameTree_1748 : NameTree := .node 0xF0487DFBFA (.node 0xF0276589CA (.node 0xF01D8013A5 (.node 0xF008794E5E (.leaf 0x1F5E5) (.node 0xF018DCDF8F (.leaf 0x2753) (.leaf 0x1F0A2))) (.node 0xF026E81ED2 (.node 0xF0213B8D57 (.leaf 0xAB64) (.leaf 0x21FE)) (.node 0xF0276581CA (.leaf 0x1F0B2) (.leaf 0x114B0)))) (.node 0xF02C3B6C78 (.node 0xF0276D89CA (.node 0xF0276595CA (.leaf 0x114BB) (.leaf 0x114BE)) (.node 0xF0277995CA (.leaf 0x114B2) (.leaf 0x114B4))) (.node 0xF0323A7978 (.node 0xF0301506D0 (.leaf 0x1E8CB) (.leaf 0x2932)) (.node 0xF03DD01021 (.leaf 0x1E8CA) (.leaf 0x109BC))))) (nameTree_1747)
def nameTree_1749 : NameTree := .node 0xF090D9DA84 (.node 0xF090CEDA84 (.node 0xF090C7DA84 (.node 0xF090C5DA84 (.leaf 0x1898) (.node 0xF090C6DA84 (.leaf 0x1A05) (.leaf 0x1A0C))) (.node 0xF090CBDA84 (.node 0xF090CADA84 (.leaf 0x1A09) (.leaf 0x1A01)) (.node 0xF090CDDA84 (.leaf 0x1A16) (.leaf 0x1A0D)))) (.node 0xF090D3DA84 (.node 0xF090D0DA84 (.node 0xF090CFDA84 (.leaf 0x1A00) (.leaf 0x1A12)) (.node 0xF090D1DA84 (.leaf 0x1A06) (.leaf 0x1A0A))) (.node 0xF090D6DA84 (.node 0xF090D5DA84 (.leaf 0x1A04) (.leaf 0x1A11)) (.node 0xF090D7DA84 (.leaf 0x1A14) (.leaf 0x1A08))))) (.node 0xF0A6548357 (.node 0xF09297B370 (.node 0xF090DCDA84 (.leaf 0x1A13) (.node 0xF0928EB523 (.leaf 0x1A10) (.leaf 0x1D6B2))) (.node 0xF0959AB4CC (.node 0xF0952AABBA (.leaf 0x1D6AA) (.leaf 0x1DA7F)) (.node 0xF0A6518B57 (.leaf 0x1D6B1) (.leaf 0x1090F)))) (.node 0xF0B0498357 (.node 0xF0AD4D9157 (.node 0xF0A74D9157 (.leaf 0x10900) (.leaf 0x10901)) (.node 0xF0AEE02AE7 (.leaf 0x10907) (.leaf 0x110B9))) (.node 0xF0B35D8B57 (.node 0xF0B24D8A57 (.leaf 0x1090A) (.leaf 0x1090C)) (.node 0xF0B46710E0 (.leaf 0x1090D) (.leaf 0xDA9)))))
def nameTree_1750 : NameTree := .node 0xF0EF18A74C (.node 0xF0ED5D2116 (.node 0xF0E9F6737B (.node 0xF0E72F7F63 (.leaf 0x2EBE) (.leaf 0x1F4CD)) (.node 0xF0EBEE7E8F (.leaf 0x12031) (.leaf 0x2EBF))) (.node 0xF0EEF16B6A (.node 0xF0EEF16A6A (.leaf 0x204B) (.leaf 0x1D1A4)) (.node 0xF0EF18A14C (.leaf 0x1D1A5) (.leaf 0x117A)))) (.node 0xF0F518A74C (.node 0xF0F518974C (.node 0xF0F518934C (.leaf 0x117B) (.leaf 0xD7B9)) (.node 0xF0F518A14C (.leaf 0xD7BB) (.leaf 0xD7BC))) (.node 0xF1059F099B (.node 0xF0F7A52806 (.leaf 0x1195) (.leaf 0x1DF2)) (.node 0xF10D0399E1 (.leaf 0x110F3) (.leaf 0x18E7))))
def nameTree_1751 : NameTree := .node 0xF0E6E5748F (.node 0xF0BE578157 (.node 0xF0BC17B902 (.node 0xF0B9499257 (.leaf 0x10912) (.node 0xF0B94D9157 (.leaf 0x10915) (.leaf 0x10908))) (.node 0xF0BC4E406F (.node 0xF0BC499257 (.leaf 0x2999) (.leaf 0x10905)) (.node 0xF0BD188899 (.leaf 0xFD2A) (.leaf 0x1D9BE)))) (.node 0xF0C8ACF6AD (.node 0xF0C1F98CCE (.node 0xF0BF498657 (.leaf 0x10909) (.leaf 0x10906)) (.node 0xF0C795C21E (.leaf 0x1DAA) (.leaf 0x1D133))) (.node 0xF0D3660CD0 (.node 0xF0D2F9B906 (.leaf 0x1745) (.leaf 0xA9A3)) (.node 0xF0E1DCD396 (.leaf 0x324E) (.leaf 0xFCBE))))) (nameTree_1750)
def nameTree_1752 : NameTree := .node 0xF184510A06 (.node 0xF1642D4890 (.node 0xF15AF73AAB (.node 0xF1576451B0 (.leaf 0x1D8B2) (.leaf 0x1D8EC)) (.node 0xF16144A842 (.leaf 0x2BAA) (.leaf 0x253A))) (.node 0xF17BE66616 (.node 0xF17B7B4E69 (.leaf 0x137C) (.leaf 0xE003A)) (.node 0xF17C794169 (.leaf 0x6EF) (.leaf 0xE002C)))) (.node 0xF193AF008D (.node 0xF18EE1E17F (.node 0xF1845FB906 (.leaf 0x1DF3) (.leaf 0xA999)) (.node 0xF193A8FA8D (.leaf 0x29A2) (.leaf 0xB61))) (.node 0xF194EBDF1B (.node 0xF194625B7A (.leaf 0xB60) (.leaf 0x10193)) (.node 0xF19B1290DE (.leaf 0x1374) (.leaf 0xA8C4))))
def nameTree_1753 : NameTree := .node 0xF14D34134E (.node 0xF1341A2F87 (.node 0xF11AADDAB3 (.node 0xF10D199DE1 (.leaf 0x18E6) (.node 0xF117870937 (.leaf 0x18E5) (.leaf 0x122DF))) (.node 0xF12DAF202F (.node 0xF12ADFD39B (.leaf 0x1690F) (.leaf 0x2B94)) (.node 0xF12DDD51B8 (.leaf 0x1F5B6) (.leaf 0xFD9D)))) (.node 0xF13CE0731A (.node 0xF13ABB64E1 (.node 0xF138E68108 (.leaf 0x2EE7) (.leaf 0x12010)) (.node 0xF13C1A2687 (.leaf 0xA7F7) (.leaf 0x2EB0))) (.node 0xF14A9EA911 (.node 0xF13E841EAD (.leaf 0x1D930) (.leaf 0x1F05)) (.node 0xF14CF27BC0 (.leaf 0x180A) (.leaf 0x1D166))))) (nameTree_1752)
def nameTree_1754 : NameTree := .node 0xF1CFB7FC49 (.node 0xF1CFAAF149 (.node 0xF1CE99FCB7 (.node 0xF1C865150F (.leaf 0x2A7) (.leaf 0xABED)) (.node 0xF1CFAAEE49 (.leaf 0x1F642) (.leaf 0xFB00))) (.node 0xF1CFADF249 (.node 0xF1CFAAF449 (.leaf 0xFB01) (.leaf 0xFB02)) (.node 0xF1CFB3ED49 (.leaf 0x133) (.leaf 0x153)))) (.node 0xF1DA0C3639 (.node 0xF1D7E825CE (.node 0xF1D1E85197 (.leaf 0xFB06) (.leaf 0x2E25)) (.node 0xF1D9F81DAB (.leaf 0x2A7B) (.leaf 0xFB4A))) (.node 0xF1E220100B (.node 0xF1E0468DF5 (.leaf 0xFB35) (.leaf 0x1D817)) (.node 0xF1E87BF809 (.leaf 0x1F008) (.leaf 0x1AAB))))
def nameTree_1755 : NameTree := .node 0xF1C4B600BC (.node 0xF1AD117DFB (.node 0xF1A8B19BEB (.node 0xF1A45FDCFE (.leaf 0xBED) (.node 0xF1A7B59BEB (.leaf 0x2F04) (.leaf 0xAA62))) (.node 0xF1A921C24A (.node 0xF1A8B59BEB (.leaf 0xAA68) (.leaf 0xAA6A)) (.node 0xF1ACB59BEB (.leaf 0x2B59) (.leaf 0xAA6E)))) (.node 0xF1B8C19BEB (.node 0xF1B222DEC0 (.node 0xF1AEB59BEB (.leaf 0x10AD1) (.leaf 0xAA64)) (.node 0xF1B2C69BEB (.leaf 0x2384) (.leaf 0xAA65))) (.node 0xF1C09AB406 (.node 0xF1BB117DFB (.leaf 0xAA66) (.leaf 0x10ADF)) (.node 0xF1C0C59CC7 (.leaf 0x1DF4) (.leaf 0x1B5))))) (nameTree_1754)
def nameTree_1756 : NameTree := .node 0xF1FC6A76F1 (.node 0xF1FC6A6EF1 (.node 0xF1FC6A6AF1 (.node 0xF1F4737B9B (.leaf 0x33FC) (.node 0xF1FAA21382 (.leaf 0x1F915) (.leaf 0x110F8))) (.node 0xF1FC6A6CF1 (.node 0xF1FC6A6BF1 (.leaf 0xFF41) (.leaf 0xFF42)) (.node 0xF1FC6A6DF1 (.leaf 0xFF43) (.leaf 0xFF44)))) (.node 0xF1FC6A72F1 (.node 0xF1FC6A70F1 (.node 0xF1FC6A6FF1 (.leaf 0xFF45) (.leaf 0xFF46)) (.node 0xF1FC6A71F1 (.leaf 0xFF47) (.leaf 0xFF48))) (.node 0xF1FC6A74F1 (.node 0xF1FC6A73F1 (.leaf 0xFF49) (.leaf 0xFF4A)) (.node 0xF1FC6A75F1 (.leaf 0xFF4B) (.leaf 0xFF4C))))) (.node 0xF1FC6A7DF1 (.node 0xF1FC6A79F1 (.node 0xF1FC6A77F1 (.leaf 0xFF4D) (.node 0xF1FC6A78F1 (.leaf 0xFF4E) (.leaf 0xFF4F))) (.node 0xF1FC6A7BF1 (.node 0xF1FC6A7AF1 (.leaf 0xFF50) (.leaf 0xFF51)) (.node 0xF1FC6A7CF1 (.leaf 0xFF52) (.leaf 0xFF53)))) (.node 0xF1FC6A81F1 (.node 0xF1FC6A7FF1 (.node 0xF1FC6A7EF1 (.leaf 0xFF54) (.leaf 0xFF55)) (.node 0xF1FC6A80F1 (.leaf 0xFF56) (.leaf 0xFF57))) (.node 0xF1FC6A83F1 (.node 0xF1FC6A82F1 (.leaf 0xFF58) (.leaf 0xFF59)) (.node 0xF200D5203C (.leaf 0xFF5A) (.leaf 0x260A)))))
def nameTree_1757 : NameTree := .node 0xF2352DDDD1 (.node 0xF228F61529 (.node 0xF21DEF16FD (.node 0xF21D50D148 (.leaf 0x281) (.leaf 0x120A2)) (.node 0xF220CFD2E5 (.leaf 0x1E4E) (.leaf 0x1F026))) (.node 0xF22C97BD54 (.node 0xF22BE2285D (.leaf 0x1249C) (.leaf 0x1249A)) (.node 0xF2342F23DB (.leaf 0x119E) (.leaf 0x1F43A)))) (.node 0xF23EF713DE (.node 0xF238EA03F9 (.node 0xF2357B3DDD (.leaf 0x1F88) (.leaf 0xD71)) (.node 0xF23D9CC090 (.leaf 0xF07) (.leaf 0x2510))) (.node 0xF243A388BE (.node 0xF240D1841B (.leaf 0x2053) (.leaf 0xAB44)) (.node 0xF2464DC0DE (.leaf 0xC7C) (.leaf 0x10B8F))))
def nameTree_1758 : NameTree := .node 0xF21CECC3ED (.node 0xF212CF75A6 (.node 0xF209617F00 (.node 0xF2072806F1 (.leaf 0x499) (.node 0xF207779FF4 (.leaf 0x2951) (.leaf 0x150F))) (.node 0xF20F779FF4 (.node 0xF209CD1381 (.leaf 0x2B12) (.leaf 0xD70)) (.node 0xF212CF71A6 (.leaf 0x150E) (.leaf 0x11639)))) (.node 0xF213E57E9A (.node 0xF212CF81A6 (.node 0xF212CF7BA6 (.leaf 0x11631) (.leaf 0x1163B)) (.node 0xF213290179 (.leaf 0x11633) (.leaf 0xFBAD))) (.node 0xF218779FF4 (.node 0xF214779FF4 (.leaf 0x1F9F) (.leaf 0x150C)) (.node 0xF21B619FF4 (.leaf 0x150D) (.leaf 0x1504))))) (nameTree_1757)
def nameTree_1759 : NameTree := .node 0xF251818095 (.node 0xF2517C8E95 (.node 0xF2517A8E95 (.node 0xF2517A8095 (.leaf 0x1782) (.leaf 0x17A1)) (.node 0xF2517B8E95 (.leaf 0x179B) (.leaf 0x1798))) (.node 0xF2517F8095 (.node 0xF2517E8E95 (.leaf 0x1793) (.leaf 0x1796)) (.node 0xF251808E95 (.leaf 0x17A2) (.leaf 0x179A)))) (.node 0xF251878E95 (.node 0xF251828E95 (.node 0xF251828095 (.leaf 0x179F) (.leaf 0x178F)) (.node 0xF251848E95 (.leaf 0x1791) (.leaf 0x179C))) (.node 0xF253B7C848 (.node 0xF252412765 (.leaf 0x1799) (.leaf 0x1F54F)) (.node 0xF256B7C848 (.leaf 0xA895) (.leaf 0xA89A))))
def nameTree_1760 : NameTree := .node 0xF251798E95 (.node 0xF250B7C848 (.node 0xF24CC50956 (.node 0xF24AB70ADB (.leaf 0xFF5F) (.node 0xF24B96D086 (.leaf 0xC66) (.leaf 0x6D1))) (.node 0xF24FB7C848 (.node 0xF24EB7C848 (.leaf 0x2B37) (.leaf 0xA8A9)) (.node 0xF250B3C848 (.leaf 0xA898) (.leaf 0xA89E)))) (.node 0xF251728095 (.node 0xF251718095 (.node 0xF251708095 (.leaf 0xA8A4) (.leaf 0x1794)) (.node 0xF251718E95 (.leaf 0x1785) (.leaf 0x1787))) (.node 0xF251768095 (.node 0xF251728E95 (.leaf 0x178A) (.leaf 0x178C)) (.node 0xF251798095 (.leaf 0x17A0) (.leaf 0x1780))))) (nameTree_1759)
def nameTree_1761 : NameTree := .node 0xF263AD8592 (.node 0xF261AD8592 (.node 0xF260B7C848 (.node 0xF25FC2C848 (.leaf 0x12391) (.leaf 0xA8B0)) (.node 0xF260C3C848 (.leaf 0xA8A2) (.leaf 0xA89C))) (.node 0xF262AD8592 (.node 0xF261FB8303 (.leaf 0x110E0) (.leaf 0x65D)) (.node 0xF2636EC857 (.leaf 0x110DF) (.leaf 0x2344)))) (.node 0xF264D16712 (.node 0xF264AD8592 (.node 0xF264AD8292 (.leaf 0x110D8) (.leaf 0x110E8)) (.node 0xF264D15F12 (.leaf 0x110D6) (.leaf 0x12256))) (.node 0xF26771DAEA (.node 0xF265AD8592 (.leaf 0x12524) (.leaf 0x110D9)) (.node 0xF26771E2EA (.leaf 0x1122C) (.leaf 0x11231))))
def nameTree_1762 : NameTree := .node 0xF25FBD6712 (.node 0xF25B4ECC3F (.node 0xF25AAD8592 (.node 0xF258BBC848 (.leaf 0xA893) (.node 0xF259AD8592 (.leaf 0xA8B3) (.leaf 0x110D2))) (.node 0xF25ABDC848 (.node 0xF25AB6C848 (.leaf 0x110D3) (.leaf 0xA896)) (.node 0xF25AC8C848 (.leaf 0xA8A0) (.leaf 0xA89B)))) (.node 0xF25EAD8592 (.node 0xF25CB18592 (.node 0xF25BAD8592 (.leaf 0x10B86) (.leaf 0x110D4)) (.node 0xF25CB7C848 (.leaf 0x110E3) (.leaf 0xA8A7))) (.node 0xF25FAD8592 (.node 0xF25ECF6312 (.leaf 0x110D5) (.leaf 0x12254)) (.node 0xF25FB7C848 (.leaf 0x110DE) (.leaf 0xA8AF))))) (nameTree_1761)
def nameTree_1763 : NameTree := .node 0xF272CF6312 (.node 0xF26BAD8592 (.node 0xF26823915E (.node 0xF26779E2EA (.leaf 0x11233) (.node 0xF267AD8592 (.leaf 0x1122E) (.leaf 0x110DB))) (.node 0xF26A90C610 (.node 0xF269AD8592 (.leaf 0xFC3D) (.leaf 0x110DD)) (.node 0xF26AAD8592 (.leaf 0x1F581) (.leaf 0x110D0)))) (.node 0xF26DDC6BA4 (.node 0xF26C23EFF0 (.node 0xF26BD16912 (.leaf 0x110D1) (.leaf 0x12259)) (.node 0xF26DAD8592 (.leaf 0x10EF) (.leaf 0x110DA))) (.node 0xF270AD8592 (.node 0xF2706F4AD9 (.leaf 0x20D) (.leaf 0xE0020)) (.node 0xF270C46012 (.leaf 0x110DC) (.leaf 0x1225A))))) (.node 0xF28FB07F3C (.node 0xF2770E0146 (.node 0xF2770DF746 (.leaf 0x1225F) (.node 0xF2770DFB46 (.leaf 0x947) (.leaf 0x93F))) (.node 0xF28BA0CAE9 (.node 0xF2770E0746 (.leaf 0x94B) (.leaf 0x941)) (.node 0xF28E78B906 (.leaf 0x23E1) (.leaf 0xA9B0)))) (.node 0xF2A3429A05 (.node 0xF2991159E7 (.node 0xF294E2DE2D (.leaf 0x2395) (.leaf 0x2E32)) (.node 0xF29C5122A2 (.leaf 0x1084A) (.leaf 0x2F98))) (.node 0xF2A8DCAF1F (.node 0xF2A700F0C7 (.leaf 0x1D767) (.leaf 0x2A34)) (.node 0xF2AC181502 (.leaf 0x109FC) (.leaf 0xD56)))))
def nameTree_1764 : NameTree := .node 0xF3189423F0 (.node 0xF30EEFF412 (.node 0xF2FA3563B3 (.node 0xF2EFCA632D (.leaf 0x11B5) (.leaf 0x11B4)) (.node 0xF30B250E26 (.leaf 0x327) (.leaf 0x1D178))) (.node 0xF31682AD61 (.node 0xF3138B19F0 (.leaf 0x1422) (.leaf 0x10879)) (.node 0xF3188222F0 (.leaf 0x121BA) (.leaf 0x1087E)))) (.node 0xF33B75AF22 (.node 0xF32192AAAF (.node 0xF31B619FF4 (.leaf 0x1087A) (.leaf 0x1465)) (.node 0xF32B992727 (.leaf 0x1106D) (.leaf 0x111E7))) (.node 0xF3412AA759 (.node 0xF33C5845E7 (.leaf 0x2261) (.leaf 0x12516)) (.node 0xF3412AAB59 (.leaf 0x11D00) (.leaf 0x11D06))))
def nameTree_1765 : NameTree := .node 0xF2EE6A632D (.node 0xF2DD022FC6 (.node 0xF2BB057DFB (.node 0xF2B5500754 (.leaf 0x1F8AC) (.node 0xF2B64D4207 (.leaf 0x1208E) (.leaf 0x485))) (.node 0xF2D570E1DB (.node 0xF2D493ABD9 (.leaf 0x10ACF) (.leaf 0x21C3)) (.node 0xF2D9B08A91 (.leaf 0x2654) (.leaf 0x16B3C)))) (.node 0xF2DD6A63E2 (.node 0xF2DD634FE2 (.node 0xF2DD5F57E2 (.leaf 0x1237A) (.leaf 0x124AE)) (.node 0xF2DD6453E2 (.leaf 0x124B0) (.leaf 0x124B2))) (.node 0xF2E689D75D (.node 0xF2E2B927DB (.leaf 0x124B4) (.leaf 0x2930)) (.node 0xF2ECB2632D (.leaf 0x1D900) (.leaf 0x11D8))))) (nameTree_1764)
def nameTree_1766 : NameTree := .node 0xF385B7CC2D (.node 0xF385B7C82D (.node 0xF37FE5961B (.node 0xF37DA698DB (.leaf 0x8FD) (.leaf 0x2307)) (.node 0xF385B7C72D (.leaf 0x1F60) (.leaf 0x1D5EE))) (.node 0xF385B7CA2D (.node 0xF385B7C92D (.leaf 0x1D5EF) (.leaf 0x1D5F0)) (.node 0xF385B7CB2D (.leaf 0x1D5F1) (.leaf 0x1D5F2)))) (.node 0xF385B7D02D (.node 0xF385B7CE2D (.node 0xF385B7CD2D (.leaf 0x1D5F3) (.leaf 0x1D5F4)) (.node 0xF385B7CF2D (.leaf 0x1D5F5) (.leaf 0x1D5F6))) (.node 0xF385B7D22D (.node 0xF385B7D12D (.leaf 0x1D5F7) (.leaf 0x1D5F8)) (.node 0xF385B7D32D (.leaf 0x1D5F9) (.leaf 0x1D5FA))))
def nameTree_1767 : NameTree := .node 0xF37C4AF1EC (.node 0xF3528ADECB (.node 0xF342EA06E2 (.node 0xF3412AB559 (.leaf 0x11D02) (.node 0xF3412ABB59 (.leaf 0x11D09) (.leaf 0x11D04))) (.node 0xF345EEBDD5 (.node 0xF34436F844 (.leaf 0xD6D) (.leaf 0xA7A1)) (.node 0xF34C99BE21 (.leaf 0x1F35F) (.leaf 0x1A97)))) (.node 0xF3697B10CC (.node 0xF35F7E11D8 (.node 0xF35C837126 (.leaf 0x216E) (.leaf 0x1D135)) (.node 0xF3683DDF11 (.leaf 0x25F9) (.leaf 0x33F6))) (.node 0xF36EC22AA9 (.node 0xF36C23F3F0 (.leaf 0x1E3A) (.leaf 0x10E5)) (.node 0xF373B933A9 (.leaf 0x10320) (.leaf 0x10322))))) (nameTree_1766)
def nameTree_1768 : NameTree := .node 0xF38ADD8D6B (.node 0xF38A236046 (.node 0xF3888C2693 (.node 0xF387EB5FEC (.leaf 0x1E915) (.leaf 0x1F4A4)) (.node 0xF38A235B46 (.leaf 0x1E90D) (.leaf 0x1DDB))) (.node 0xF38A236246 (.node 0xF38A236146 (.leaf 0x1DDE) (.leaf 0x1DDF)) (.node 0xF38A236646 (.leaf 0x1DE1) (.leaf 0x1DE2)))) (.node 0xF38F2EC848 (.node 0xF38CD41BD1 (.node 0xF38B862A93 (.leaf 0x10B39) (.leaf 0x1E91E)) (.node 0xF38EA25146 (.leaf 0x3332) (.leaf 0x1EEAE))) (.node 0xF38F8C2693 (.node 0xF38F852B93 (.leaf 0x1240D) (.leaf 0x1E911)) (.node 0xF38F943493 (.leaf 0x1E91D) (.leaf 0x1E920))))
def nameTree_1769 : NameTree := .node 0xF3878C2E93 (.node 0xF385B7DB2D (.node 0xF385B7D72D (.node 0xF385B7D52D (.leaf 0x1D5FB) (.node 0xF385B7D62D (.leaf 0x1D5FC) (.leaf 0x1D5FD))) (.node 0xF385B7D92D (.node 0xF385B7D82D (.leaf 0x1D5FE) (.leaf 0x1D5FF)) (.node 0xF385B7DA2D (.leaf 0x1D600) (.leaf 0x1D601)))) (.node 0xF385B7DF2D (.node 0xF385B7DD2D (.node 0xF385B7DC2D (.leaf 0x1D602) (.leaf 0x1D603)) (.node 0xF385B7DE2D (.leaf 0x1D604) (.leaf 0x1D605))) (.node 0xF3868C2A93 (.node 0xF385B7E02D (.leaf 0x1D606) (.leaf 0x1D607)) (.node 0xF386CCD4B5 (.leaf 0x1E907) (.leaf 0x124B9))))) (nameTree_1768)
def nameTree_1770 : NameTree := .node 0xF39F464440 (.node 0xF39A4A4640 (.node 0xF3954E4C40 (.node 0xF392993393 (.leaf 0x1E91B) (.node 0xF3929D2693 (.leaf 0x1E910) (.leaf 0x1E919))) (.node 0xF3978C2693 (.node 0xF3964A4640 (.leaf 0x1EE2F) (.leaf 0x1EE21)) (.node 0xF398464240 (.leaf 0x1E921) (.leaf 0x1EE39)))) (.node 0xF39C464640 (.node 0xF39B853C93 (.node 0xF39A54E4BB (.leaf 0x1EE30) (.leaf 0x2F94)) (.node 0xF39BEF9929 (.leaf 0x1E90F) (.leaf 0xFF3B))) (.node 0xF39D8C2A93 (.node 0xF39C4A4640 (.leaf 0x1EE27) (.leaf 0x1EE24)) (.node 0xF39E853193 (.leaf 0x1E90E) (.leaf 0x1E91F))))) (.node 0xF3AD4A4640 (.node 0xF3A7464240 (.node 0xF3A0464B40 (.leaf 0x1EE2A) (.node 0xF3A5464440 (.leaf 0x1EE2B) (.leaf 0x1EE32))) (.node 0xF3A9428E8C (.node 0xF3A84A4640 (.leaf 0x1EE31) (.leaf 0x1EE35)) (.node 0xF3A9FBB6DE (.leaf 0x1803) (.leaf 0x1233E)))) (.node 0xF3B23ADA02 (.node 0xF3AFE7360C (.node 0xF3AF35971E (.leaf 0x1EE29) (.leaf 0x6D7)) (.node 0xF3B0744049 (.leaf 0x1D753) (.leaf 0xAB5E))) (.node 0xF3C47C3C4F (.node 0xF3B7FCB6F0 (.leaf 0x25E) (.leaf 0x11A40)) (.node 0xF3C4D6255F (.leaf 0x49A) (.leaf 0x2567)))))
def nameTree_1771 : NameTree := .node 0xF3E9706228 (.node 0xF3DAAB003D (.node 0xF3DAA8003D (.node 0xF3DAA7003D (.leaf 0x11168) (.leaf 0x1116D)) (.node 0xF3DAA9003D (.leaf 0x11170) (.leaf 0x11163))) (.node 0xF3E1C68BC4 (.node 0xF3DFE467F8 (.leaf 0x1116F) (.leaf 0x2911)) (.node 0xF3E2E1B6A5 (.leaf 0x1D079) (.leaf 0x1F719)))) (.node 0xF40B44A962 (.node 0xF4014106CE (.node 0xF4013F3220 (.leaf 0xEBD) (.leaf 0xA674)) (.node 0xF40236EA62 (.leaf 0xAB58) (.leaf 0x1F5E7))) (.node 0xF40FA90099 (.node 0xF40F7BFE00 (.leaf 0x1F546) (.leaf 0x200D)) (.node 0xF418355F58 (.leaf 0x1BB0) (.leaf 0x1012A))))
def nameTree_1772 : NameTree := .node 0xF3DAA5003D (.node 0xF3DA99003D (.node 0xF3D64BCFC8 (.node 0xF3C93BFCAF (.leaf 0x16CB) (.node 0xF3CCFE023F (.leaf 0xFF0E) (.leaf 0x2938))) (.node 0xF3DA97003D (.node 0xF3D8531F91 (.leaf 0x23B2) (.leaf 0x1F37)) (.node 0xF3DA98003D (.leaf 0x1116A) (.leaf 0x11159)))) (.node 0xF3DAA0003D (.node 0xF3DA9D003D (.node 0xF3DA9C003D (.leaf 0x11165) (.leaf 0x11157)) (.node 0xF3DA9F003D (.leaf 0x11171) (.leaf 0x1115B))) (.node 0xF3DAA2003D (.node 0xF3DAA1003D (.leaf 0x11155) (.leaf 0x1116E)) (.node 0xF3DAA3003D (.leaf 0x1116C) (.leaf 0x11167))))) (nameTree_1771)
def nameTree_1773 : NameTree := .node 0xF43E736052 (.node 0xF43E706052 (.node 0xF43E6E6052 (.node 0xF43E6D6052 (.leaf 0x1130F) (.leaf 0x11317)) (.node 0xF43E6F6852 (.leaf 0x11339) (.leaf 0x11308))) (.node 0xF43E716052 (.node 0xF43E70CC11 (.leaf 0x1131C) (.leaf 0x136D)) (.node 0xF43E726052 (.leaf 0x11315) (.leaf 0x11332)))) (.node 0xF43E786052 (.node 0xF43E756E52 (.node 0xF43E746052 (.leaf 0x1132E) (.leaf 0x11328)) (.node 0xF43E766052 (.leaf 0x11313) (.leaf 0x1132A))) (.node 0xF43E7A6052 (.node 0xF43E796052 (.leaf 0x11330) (.leaf 0x11338)) (.node 0xF43E7B7452 (.leaf 0x11324) (.leaf 0x1130A))))
def nameTree_1774 : NameTree := .node 0xF43E6B6452 (.node 0xF42CC8BD98 (.node 0xF4222CA011 (.node 0xF41A6CB7AA (.leaf 0x11102) (.node 0xF41E41718E (.leaf 0xA64D) (.leaf 0xFD51))) (.node 0xF42CBAA3C9 (.node 0xF42A57ACD7 (.leaf 0x2670) (.leaf 0x109E9)) (.node 0xF42CC0A3C9 (.leaf 0x10C9D) (.leaf 0x10CAC)))) (.node 0xF43E677452 (.node 0xF43E676052 (.node 0xF4321C38D3 (.leaf 0x1F028) (.leaf 0x1D0CE)) (.node 0xF43E676852 (.leaf 0x11306) (.leaf 0x11310))) (.node 0xF43E696052 (.node 0xF43E686052 (.leaf 0x11314) (.leaf 0x1132C)) (.node 0xF43E6A6052 (.leaf 0x1131A) (.leaf 0x11326))))) (nameTree_1773)
def nameTree_1775 : NameTree := .node 0xF497D0F896 (.node 0xF4919E4F46 (.node 0xF47AF151E7 (.node 0xF47AE88717 (.leaf 0x16F2A) (.leaf 0x1F34A)) (.node 0xF48515D959 (.leaf 0x1BC80) (.leaf 0x2661))) (.node 0xF491A24B46 (.node 0xF4919EB26B (.leaf 0x1EEB8) (.leaf 0x1D6AB)) (.node 0xF492BAB6C7 (.leaf 0x1EEB6) (.leaf 0x3298)))) (.node 0xF49B51D5FE (.node 0xF49A5B2FDB (.node 0xF49A4D38DB (.leaf 0x10AE5) (.leaf 0xE08)) (.node 0xF49B0F7342 (.leaf 0xE0C) (.leaf 0x4DEF))) (.node 0xF4A2BFAA66 (.node 0xF49F1A1824 (.leaf 0xBE9) (.leaf 0x1D130)) (.node 0xF4A4B0BA84 (.leaf 0x328F) (.leaf 0x328C))))
def nameTree_1776 : NameTree := .node 0xF47962A315 (.node 0xF45D40E8F8 (.node 0xF4429059E7 (.node 0xF43E7F6052 (.leaf 0x11335) (.node 0xF4415EA569 (.leaf 0x1132F) (.leaf 0x1F491))) (.node 0xF44BB69F5D (.node 0xF4446FD911 (.leaf 0xBF6) (.leaf 0x136C)) (.node 0xF4543A1E3C (.leaf 0xCA2) (.leaf 0xFE40)))) (.node 0xF47257A315 (.node 0xF4712F513B (.node 0xF465BA38A3 (.leaf 0x33FB) (.leaf 0x2319)) (.node 0xF471570AA9 (.leaf 0xA975) (.leaf 0x1F621))) (.node 0xF477F36377 (.node 0xF4764BC040 (.leaf 0x16F1A) (.leaf 0x1E18)) (.node 0xF47957A315 (.leaf 0xA652) (.leaf 0x16F2E))))) (nameTree_1775)
def nameTree_1777 : NameTree := .node 0xF4CD44974C (.node 0xF4B9ABEA0F (.node 0xF4AF38E90F (.node 0xF4AF38DF0F (.leaf 0x23EE) (.node 0xF4AF38E30F (.leaf 0xAAB5) (.leaf 0xAAB2))) (.node 0xF4B0136CF3 (.node 0xF4AF38EF0F (.leaf 0xAAB6) (.leaf 0xAAB4)) (.node 0xF4B88300C1 (.leaf 0x12221) (.leaf 0x1F893)))) (.node 0xF4C2F3E59E (.node 0xF4BFD86C26 (.node 0xF4BEA03F06 (.leaf 0xFFEA) (.leaf 0x10A7A)) (.node 0xF4C273B3FA (.leaf 0x1683D) (.leaf 0x1DA60))) (.node 0xF4CD30A74C (.node 0xF4C659F292 (.leaf 0x1D717) (.leaf 0x2443)) (.node 0xF4CD44934C (.leaf 0x119C) (.leaf 0x1199))))) (.node 0xF4E77D2AF1 (.node 0xF4D72C04BC (.node 0xF4CD44A14C (.leaf 0xD7C0) (.node 0xF4CD44A74C (.leaf 0xD7C2) (.leaf 0xD7C3))) (.node 0xF4E76E2BF1 (.node 0xF4E25CAE24 (.leaf 0x1173B) (.leaf 0x12325)) (.node 0xF4E7762CF1 (.leaf 0x1F18E) (.leaf 0x1F18B)))) (.node 0xF4F09B57DA (.node 0xF4E7842CF1 (.node 0xF4E7802AF1 (.leaf 0x1F18C) (.leaf 0x1F18D)) (.node 0xF4EFDD8F32 (.leaf 0x1F18F) (.leaf 0x1F78B))) (.node 0xF4FA2406BA (.node 0xF4F1479D26 (.leaf 0x1F26) (.leaf 0x1F6EA)) (.node 0xF4FF575139 (.leaf 0x1D01A) (.leaf 0x29)))))
def nameTree_1778 : NameTree := .node 0xF53FFEE053 (.node 0xF536D0F4F8 (.node 0xF52FAB2825 (.node 0xF527F84F17 (.leaf 0x112E2) (.leaf 0x112E4)) (.node 0xF536D0F44A (.leaf 0x2491) (.leaf 0x1695))) (.node 0xF53C1C1F87 (.node 0xF53831B6F8 (.leaf 0x1693) (.leaf 0x1694)) (.node 0xF53E4D9388 (.leaf 0x2EDB) (.leaf 0x1F943)))) (.node 0xF54408F0D5 (.node 0xF5423DDFEB (.node 0xF5400CDB53 (.leaf 0xF3B) (.leaf 0xF3A)) (.node 0xF54402F0D5 (.leaf 0x2AC2) (.leaf 0x97F))) (.node 0xF54508F0D5 (.node 0xF54427FDFD (.leaf 0x92D) (.leaf 0x1DD0)) (.node 0xF54604F0D5 (.leaf 0x91B) (.leaf 0x921))))
def nameTree_1779 : NameTree := .node 0xF527EC4317 (.node 0xF51897CCB0 (.node 0xF50E1F4029 (.node 0xF50E1F3629 (.leaf 0xA00A) (.node 0xF50E1F3A29 (.leaf 0xA014) (.leaf 0xA002))) (.node 0xF51802BCB3 (.node 0xF50F3D57D7 (.leaf 0xA011) (.leaf 0x2748)) (.node 0xF51893C97C (.leaf 0x1F783) (.leaf 0xD7B7)))) (.node 0xF527B1DD2D (.node 0xF51897D37C (.node 0xF51897D2B0 (.leaf 0xD7BA) (.leaf 0x1196)) (.node 0xF518ABC97C (.leaf 0x118F) (.leaf 0x1192))) (.node 0xF527E44317 (.node 0xF527E43B17 (.leaf 0x33DF) (.leaf 0x112E0)) (.node 0xF527E44F17 (.leaf 0x112E6) (.leaf 0x112E8))))) (nameTree_1778)
def nameTree_1780 : NameTree := .node 0xF55715F4D5 (.node 0xF55508F0D5 (.node 0xF55408F0D5 (.node 0xF55406DBFC (.leaf 0x92B) (.leaf 0x4DEA)) (.node 0xF55412F0D5 (.leaf 0x95D) (.leaf 0x931))) (.node 0xF55608F0D5 (.node 0xF55513F0D5 (.leaf 0x936) (.leaf 0x937)) (.node 0xF55614F0D5 (.leaf 0x925) (.leaf 0x91F)))) (.node 0xF56495B914 (.node 0xF55C08F0D5 (.node 0xF55B19F0D5 (.leaf 0x977) (.leaf 0x95F)) (.node 0xF564560162 (.leaf 0x979) (.leaf 0x1EEF0))) (.node 0xF56F452357 (.node 0xF56C8E0ABE (.leaf 0x1FC1) (.leaf 0x3AB)) (.node 0xF571CB221F (.leaf 0xE002E) (.leaf 0x1D8F9))))
def nameTree_1781 : NameTree := .node 0xF55208F0D5 (.node 0xF54C2F6D16 (.node 0xF54908F0D5 (.node 0xF547E8A1F0 (.leaf 0x927) (.node 0xF54907F0D5 (.leaf 0x1F91F) (.leaf 0x97B))) (.node 0xF54C08F0D5 (.node 0xF54BD661DB (.leaf 0x918) (.leaf 0x109F1)) (.node 0xF54C0AF0D5 (.leaf 0x91D) (.leaf 0x97C)))) (.node 0xF55007F0D5 (.node 0xF54DBF5499 (.node 0xF54D08F0D5 (.leaf 0x1F5BD) (.leaf 0x916)) (.node 0xF54E0CF0D5 (.leaf 0x2B90) (.leaf 0x933))) (.node 0xF55019F0D5 (.node 0xF5500EF0D5 (.leaf 0x919) (.leaf 0x923)) (.node 0xF5510FF4D5 (.leaf 0x91E) (.leaf 0x974))))) (nameTree_1780)
def nameTree_1782 : NameTree := .node 0xF5EC9E0691 (.node 0xF5E23D991A (.node 0xF5D8C0D585 (.node 0xF5D86FB6B1 (.leaf 0x1D86D) (.leaf 0x1CD0)) (.node 0xF5DBD2537E (.leaf 0xFFAA) (.leaf 0x16DA))) (.node 0xF5E83D991A (.node 0xF5E48C7DCF (.leaf 0x3189) (.leaf 0x21EC)) (.node 0xF5EA9FDEE1 (.leaf 0x318C) (.leaf 0xA99E)))) (.node 0xF5EC9E1A91 (.node 0xF5EC9E0E91 (.node 0xF5EC9E0A91 (.leaf 0x410) (.leaf 0x42D)) (.node 0xF5EC9E1491 (.leaf 0x418) (.leaf 0x41E))) (.node 0xF5FF497A41 (.node 0xF5F145219C (.leaf 0x423) (.leaf 0xA831)) (.node 0xF602F83F3A (.leaf 0x1E6F) (.leaf 0xE46))))
def nameTree_1783 : NameTree := .node 0xF5D559C73D (.node 0xF5A9D196EA (.node 0xF59054DFE5 (.node 0xF57273475A (.leaf 0xFCDB) (.node 0xF586596A9D (.leaf 0xFCDE) (.leaf 0xFBFD))) (.node 0xF5A6E5CE08 (.node 0xF5A3D289EA (.leaf 0xBEE) (.leaf 0x114D5)) (.node 0xF5A8D4C319 (.leaf 0x10A0E) (.leaf 0x268F)))) (.node 0xF5BB3F2143 (.node 0xF5B9E7712E (.node 0xF5B0B54506 (.leaf 0x114D4) (.leaf 0x10A78)) (.node 0xF5BAD902DA (.leaf 0x1D754) (.leaf 0x2166))) (.node 0xF5D334728A (.node 0xF5CB7BAE71 (.leaf 0x314) (.leaf 0x1F531)) (.node 0xF5D5490158 (.leaf 0x111DD) (.leaf 0x231D))))) (nameTree_1782)
def nameTree_1784 : NameTree := .node 0xF629D710E0 (.node 0xF6178A6EA0 (.node 0xF614940AA7 (.node 0xF60B896AEB (.leaf 0x1D781) (.node 0xF6118877EB (.leaf 0x278E) (.leaf 0x278D))) (.node 0xF61782BF49 (.node 0xF6177C6144 (.leaf 0x11619) (.leaf 0x1E81B)) (.node 0xF617846DF2 (.leaf 0x1E86E) (.leaf 0x1E84D)))) (.node 0xF61F4ACCB2 (.node 0xF617935FA5 (.node 0xF6178D599B (.leaf 0x1E88E) (.leaf 0x1E82F)) (.node 0xF61D92A206 (.leaf 0x1E857) (.leaf 0x11069))) (.node 0xF627991E7E (.node 0xF61FDED76C (.leaf 0xA94F) (.leaf 0x296F)) (.node 0xF6296921EF (.leaf 0x111E3) (.leaf 0x303B))))) (.node 0xF63E5C9CD9 (.node 0xF62FE75A43 (.node 0xF62C254EB5 (.leaf 0xDA7) (.node 0xF62FE15443 (.leaf 0x1F6F2) (.leaf 0xAE1))) (.node 0xF6320A43DB (.node 0xF631FC43DB (.leaf 0xAE0) (.leaf 0xEB1)) (.node 0xF63E5898D9 (.leaf 0xEBB) (.leaf 0xAB23)))) (.node 0xF64FFFC7A1 (.node 0xF646B78A29 (.node 0xF63EE9FE39 (.leaf 0xAB24) (.leaf 0xD69)) (.node 0xF64899B578 (.leaf 0x1F92B) (.leaf 0x1A93))) (.node 0xF65AD7EBA6 (.node 0xF657AAF073 (.leaf 0x23B8) (.leaf 0xE4D)) (.node 0xF65B2EEBA6 (.leaf 0x1DD1) (.leaf 0x1DD2)))))
def nameTree_1785 : NameTree := .node 0xF67BE51C52 (.node 0xF677882A6A (.node 0xF676562388 (.node 0xF673CCA7CF (.leaf 0xA777) (.leaf 0xA8E0)) (.node 0xF676A592F9 (.leaf 0x1DC6) (.leaf 0x1F7B0))) (.node 0xF678F6F826 (.node 0xF678C70B8A (.leaf 0x272B) (.leaf 0x1D992)) (.node 0xF67A5621D5 (.leaf 0x110F1) (.leaf 0x1DCC)))) (.node 0xF68C4F9FC8 (.node 0xF67E000226 (.node 0xF67CF20B26 (.leaf 0x1E945) (.leaf 0x110F6)) (.node 0xF687E9D572 (.leaf 0x110F2) (.leaf 0x137A))) (.node 0xF68C4FA7C8 (.node 0xF68C4FA3C8 (.leaf 0x10B00) (.leaf 0x10B08)) (.node 0xF68C4FADC8 (.leaf 0x10B0C) (.leaf 0x10B0A))))
def nameTree_1786 : NameTree := .node 0xF6727496EA (.node 0xF669718AEA (.node 0xF6636D90EA (.node 0xF6616E97EA (.leaf 0xAB53) (.node 0xF6627496EA (.leaf 0xA76F) (.leaf 0xA771))) (.node 0xF6637391EA (.node 0xF6637291EA (.leaf 0x14B) (.leaf 0x283)) (.node 0xF6637991EA (.leaf 0xF0) (.leaf 0x292)))) (.node 0xF66BE9DDF3 (.node 0xF66A7496EA (.node 0xF6699B5BD2 (.leaf 0x138) (.leaf 0x2062)) (.node 0xF66B7496EA (.leaf 0xA772) (.leaf 0xA773))) (.node 0xF66E6792EA (.node 0xF66C7496EA (.leaf 0x11A2) (.leaf 0xA774)) (.node 0xF6707496EA (.leaf 0x278) (.leaf 0xA775))))) (nameTree_1785)
def nameTree_1787 : NameTree := .node 0xF6F0426875 (.node 0xF6E09DC9F8 (.node 0xF6D93AE935 (.node 0xF6D756ADD1 (.leaf 0x1EA9) (.leaf 0x3206)) (.node 0xF6DBFF4BC6 (.leaf 0x4DD9) (.leaf 0x124BA))) (.node 0xF6EE439AF3 (.node 0xF6E461E5A9 (.leaf 0x1F8A2) (.leaf 0x1F4E4)) (.node 0xF6EF036F78 (.leaf 0x168E) (.leaf 0xFBC0)))) (.node 0xF702E70CA8 (.node 0xF6F47CD69F (.node 0xF6F05FEDA3 (.leaf 0x352) (.leaf 0x2622)) (.node 0xF6F90E1DA2 (.leaf 0x37C) (.leaf 0x1241D))) (.node 0xF707F044CD (.node 0xF7062842F9 (.leaf 0x29F3) (.leaf 0x1F5D8)) (.node 0xF707F244CD (.leaf 0x182A) (.leaf 0x1833))))
def nameTree_1788 : NameTree := .node 0xF6D060688E (.node 0xF6AAC76755 (.node 0xF69CE633E4 (.node 0xF68F42EB9A (.leaf 0x10B0E) (.node 0xF69684B6A2 (.leaf 0x122C9) (.leaf 0x10457))) (.node 0xF6AA576C71 (.node 0xF6A565A14D (.leaf 0x1F64B) (.leaf 0x1F797)) (.node 0xF6AA9FB1C0 (.leaf 0x268E) (.leaf 0x205A)))) (.node 0xF6B4F96D66 (.node 0xF6AB85080C (.node 0xF6AB245C95 (.leaf 0x2249) (.leaf 0x3D5)) (.node 0xF6B3035F67 (.leaf 0x8E8) (.leaf 0x298E))) (.node 0xF6C6FAD05D (.node 0xF6B7CFFFC1 (.leaf 0x27E9) (.leaf 0x2533)) (.node 0xF6CEB3715D (.leaf 0x1D1D2) (.leaf 0x2666))))) (nameTree_1787)
def nameTree_1789 : NameTree := .node 0xF7177C5944 (.node 0xF70C26343A (.node 0xF7080844CD (.node 0xF7080744CD (.leaf 0x1838) (.leaf 0x1836)) (.node 0xF70AA79F04 (.leaf 0x183D) (.leaf 0x1F105))) (.node 0xF70D3E4294 (.node 0xF70C4A6300 (.leaf 0x68B) (.leaf 0x1B40)) (.node 0xF71295ABED (.leaf 0x1F7AC) (.leaf 0x1106E)))) (.node 0xF71783BDF2 (.node 0xF71781B044 (.node 0xF7177EC0A5 (.leaf 0x1E81C) (.leaf 0x1E843)) (.node 0xF717825A49 (.leaf 0x1E884) (.leaf 0x1E869))) (.node 0xF7178A5EA0 (.node 0xF7178560ED (.leaf 0x1E82A) (.leaf 0x1E800)) (.node 0xF7178CB24E (.leaf 0x1E890) (.leaf 0x1E8AD))))
def nameTree_1790 : NameTree := .node 0xF7080544CD (.node 0xF707FC44CD (.node 0xF707F844CD (.node 0xF707F444CD (.leaf 0x1827) (.node 0xF707F544CD (.leaf 0x1839) (.leaf 0x182D))) (.node 0xF707FA44CD (.node 0xF707F944CD (.leaf 0x1835) (.leaf 0x183A)) (.node 0xF707FB44CD (.leaf 0x182F) (.leaf 0x182E)))) (.node 0xF7080044CD (.node 0xF707FE44CD (.node 0xF707FD48CD (.leaf 0x1828) (.leaf 0x1825)) (.node 0xF707FF44CD (.leaf 0x182B) (.leaf 0x182C))) (.node 0xF7080244CD (.node 0xF7080144CD (.leaf 0x1837) (.leaf 0x1830)) (.node 0xF7080348CD (.leaf 0x1832) (.leaf 0x1826))))) (nameTree_1789)
def nameTree_1791 : NameTree := .node 0xF751557ECB (.node 0xF740B059DD (.node 0xF73FA413A9 (.node 0xF73ECFE950 (.leaf 0x1A98) (.leaf 0x2608)) (.node 0xF7404B672E (.leaf 0x1F610) (.leaf 0xA6EC))) (.node 0xF74E56AB91 (.node 0xF741AEE13A (.leaf 0x270D) (.leaf 0x271D)) (.node 0xF750ECDC68 (.leaf 0x8A7) (.leaf 0x31F)))) (.node 0xF76C5C3F14 (.node 0xF75795B76B (.node 0xF756F43028 (.leaf 0x2B25) (.leaf 0xCBD)) (.node 0xF759876759 (.leaf 0x1DF0) (.leaf 0x8E7))) (.node 0xF77E499C84 (.node 0xF77A677E57 (.leaf 0x1F0A8) (.leaf 0x1F0B8)) (.node 0xF78A9CD733 (.leaf 0x23D0) (.leaf 0xFE85))))
def nameTree_1792 : NameTree := .node 0xF73D9CBF5F (.node 0xF7248CC4BF (.node 0xF71793BE9B (.node 0xF71790C5A0 (.leaf 0x1E830) (.node 0xF7179361F2 (.leaf 0x1E8BB) (.leaf 0x1E853))) (.node 0xF7194784FB (.node 0xF718945714 (.leaf 0x1E859) (.leaf 0x170)) (.node 0xF71C9C2865 (.leaf 0x1F906) (.leaf 0x111E8)))) (.node 0xF730F634E4 (.node 0xF72E6E6E25 (.node 0xF72B876476 (.leaf 0x1D7AF) (.leaf 0x2AEF)) (.node 0xF72FB45A8B (.leaf 0xA66A) (.leaf 0xA668))) (.node 0xF733ED0820 (.node 0xF73179A1EC (.leaf 0x2789) (.leaf 0xFEB0)) (.node 0xF739968102 (.leaf 0xD6E) (.leaf 0x273))))) (nameTree_1791)
def nameTree_1793 : NameTree := .node 0xF7D6A112CC (.node 0xF7D6A10ECC (.node 0xF7D6A10CCC (.node 0xF7D6A10BCC (.leaf 0xFE09) (.leaf 0xFE0A)) (.node 0xF7D6A10DCC (.leaf 0xFE0B) (.leaf 0xFE0C))) (.node 0xF7D6A110CC (.node 0xF7D6A10FCC (.leaf 0xFE0D) (.leaf 0xFE0E)) (.node 0xF7D6A111CC (.leaf 0xFE0F) (.leaf 0xE0100)))) (.node 0xF7D6A20CCC (.node 0xF7D6A20ACC (.node 0xF7D6A113CC (.leaf 0xE0101) (.leaf 0xE0102)) (.node 0xF7D6A20BCC (.leaf 0xE0103) (.leaf 0xE0104))) (.node 0xF7D6A20ECC (.node 0xF7D6A20DCC (.leaf 0xE0105) (.leaf 0xE0106)) (.node 0xF7D6A20FCC (.leaf 0xE0107) (.leaf 0xE0108))))
def nameTree_1794 : NameTree := .node 0xF7D6A10ACC (.node 0xF7AC2F29C5 (.node 0xF7A0B005B8 (.node 0xF794CA0AED (.leaf 0x1D6AF) (.node 0xF7A0A6FBB8 (.leaf 0x10AE6) (.leaf 0x2C4A))) (.node 0xF7A5613869 (.node 0xF7A0B00BB8 (.leaf 0x2C56) (.leaf 0x2C53)) (.node 0xF7A75AF0BB (.leaf 0x2FCD) (.leaf 0x2F70)))) (.node 0xF7C12E5D47 (.node 0xF7B81371A3 (.node 0xF7AED95C72 (.leaf 0x10173) (.leaf 0x110BD)) (.node 0xF7BD270F14 (.leaf 0x1D9C0) (.leaf 0x228F))) (.node 0xF7D1327068 (.node 0xF7CD79E8DB (.leaf 0x122) (.leaf 0x2659)) (.node 0xF7D57212D4 (.leaf 0x244) (.leaf 0x120BB))))) (nameTree_1793)
def nameTree_1795 : NameTree := .node 0xF7D6A413CC (.node 0xF7D6A40FCC (.node 0xF7D6A40DCC (.node 0xF7D6A40CCC (.leaf 0xE0118) (.leaf 0xE0119)) (.node 0xF7D6A40ECC (.leaf 0xE011A) (.leaf 0xE011B))) (.node 0xF7D6A411CC (.node 0xF7D6A410CC (.leaf 0xE011C) (.leaf 0xE011D)) (.node 0xF7D6A412CC (.leaf 0xE011E) (.leaf 0xE011F)))) (.node 0xF7D6A50DCC (.node 0xF7D6A50BCC (.node 0xF7D6A50ACC (.leaf 0xE0120) (.leaf 0xE0121)) (.node 0xF7D6A50CCC (.leaf 0xE0122) (.leaf 0xE0123))) (.node 0xF7D6A50FCC (.node 0xF7D6A50ECC (.leaf 0xE0124) (.leaf 0xE0125)) (.node 0xF7D6A510CC (.leaf 0xE0126) (.leaf 0xE0127))))
def nameTree_1796 : NameTree := .node 0xF7D6A40BCC (.node 0xF7D6A30DCC (.node 0xF7D6A213CC (.node 0xF7D6A211CC (.leaf 0xE0109) (.node 0xF7D6A212CC (.leaf 0xE010A) (.leaf 0xE010B))) (.node 0xF7D6A30BCC (.node 0xF7D6A30ACC (.leaf 0xE010C) (.leaf 0xE010D)) (.node 0xF7D6A30CCC (.leaf 0xE010E) (.leaf 0xE010F)))) (.node 0xF7D6A311CC (.node 0xF7D6A30FCC (.node 0xF7D6A30ECC (.leaf 0xE0110) (.leaf 0xE0111)) (.node 0xF7D6A310CC (.leaf 0xE0112) (.leaf 0xE0113))) (.node 0xF7D6A313CC (.node 0xF7D6A312CC (.leaf 0xE0114) (.leaf 0xE0115)) (.node 0xF7D6A40ACC (.leaf 0xE0116) (.leaf 0xE0117))))) (nameTree_1795)
def nameTree_1797 : NameTree := .node 0xF7D6A80ACC (.node 0xF7D6A710CC (.node 0xF7D6A70ECC (.node 0xF7D6A70DCC (.leaf 0xE0137) (.leaf 0xE0138)) (.node 0xF7D6A70FCC (.leaf 0xE0139) (.leaf 0xE013A))) (.node 0xF7D6A712CC (.node 0xF7D6A711CC (.leaf 0xE013B) (.leaf 0xE013C)) (.node 0xF7D6A713CC (.leaf 0xE013D) (.leaf 0xE013E)))) (.node 0xF7D6A80ECC (.node 0xF7D6A80CCC (.node 0xF7D6A80BCC (.leaf 0xE013F) (.leaf 0xE0140)) (.node 0xF7D6A80DCC (.leaf 0xE0141) (.leaf 0xE0142))) (.node 0xF7D6A810CC (.node 0xF7D6A80FCC (.leaf 0xE0143) (.leaf 0xE0144)) (.node 0xF7D6A811CC (.leaf 0xE0145) (.leaf 0xE0146))))
def nameTree_1798 : NameTree := .node 0xF7D6A70CCC (.node 0xF7D6A60ECC (.node 0xF7D6A60ACC (.node 0xF7D6A512CC (.leaf 0xE0128) (.node 0xF7D6A513CC (.leaf 0xE0129) (.leaf 0xE012A))) (.node 0xF7D6A60CCC (.node 0xF7D6A60BCC (.leaf 0xE012B) (.leaf 0xE012C)) (.node 0xF7D6A60DCC (.leaf 0xE012D) (.leaf 0xE012E)))) (.node 0xF7D6A612CC (.node 0xF7D6A610CC (.node 0xF7D6A60FCC (.leaf 0xE012F) (.leaf 0xE0130)) (.node 0xF7D6A611CC (.leaf 0xE0131) (.leaf 0xE0132))) (.node 0xF7D6A70ACC (.node 0xF7D6A613CC (.leaf 0xE0133) (.leaf 0xE0134)) (.node 0xF7D6A70BCC (.leaf 0xE0135) (.leaf 0xE0136))))) (nameTree_1797)
def nameTree_1799 : NameTree := .node 0xF3928C2693 (.node 0xF1F4643D66 (.node 0xF08BCB532D (.node 0xEFA2C4AE15 (.node 0xEF6C23EFF0 (nameTree_1742) (nameTree_1744)) (.node 0xF0073DE7F2 (nameTree_1746) (nameTree_1748))) (.node 0xF10D11A7E1 (.node 0xF0B6578357 (nameTree_1749) (nameTree_1751)) (.node 0xF19F51DEA7 (nameTree_1753) (nameTree_1755)))) (.node 0xF26771EEEA (.node 0xF2479F1FC9 (.node 0xF206C71D8D (nameTree_1756) (nameTree_1758)) (.node 0xF257B7C848 (nameTree_1760) (nameTree_1762))) (.node 0xF3412AAF59 (.node 0xF2B3A545DC (nameTree_1763) (nameTree_1765)) (.node 0xF385B7D42D (nameTree_1767) (nameTree_1769))))) (.node 0xF607764FC1 (.node 0xF4A973EF3C (.node 0xF419A18E5B (.node 0xF3C543AFD1 (nameTree_1770) (nameTree_1772)) (.node 0xF43E7C6052 (nameTree_1774) (nameTree_1776))) (.node 0xF54608F0D5 (.node 0xF50E1F3229 (nameTree_1777) (nameTree_1779)) (.node 0xF5724B163E (nameTree_1781) (nameTree_1783)))) (.node 0xF7178D6D9B (.node 0xF68C4FB3C8 (.node 0xF6616792EA (nameTree_1784) (nameTree_1786)) (.node 0xF707F348CD (nameTree_1788) (nameTree_1790))) (.node 0xF7D6A210CC (.node 0xF78A9EB7DB (nameTree_1792) (nameTree_1794)) (.node 0xF7D6A511CC (nameTree_1796) (nameTree_1798)))))
def nameTree_1800 : NameTree := .node 0xF7F13C940C (.node 0xF7D6A90FCC (.node 0xF7D6A90BCC (.node 0xF7D6A813CC (.leaf 0xE0147) (.node 0xF7D6A90ACC (.leaf 0xE0148) (.leaf 0xE0149))) (.node 0xF7D6A90DCC (.node 0xF7D6A90CCC (.leaf 0xE014A) (.leaf 0xE014B)) (.node 0xF7D6A90ECC (.leaf 0xE014C) (.leaf 0xE014D)))) (.node 0xF7D6A913CC (.node 0xF7D6A911CC (.node 0xF7D6A910CC (.leaf 0xE014E) (.leaf 0xE014F)) (.node 0xF7D6A912CC (.leaf 0xE0150) (.leaf 0xE0151))) (.node 0xF7EF64C7F1 (.node 0xF7DCD5D1B3 (.leaf 0xE0152) (.leaf 0x1F59C)) (.node 0xF7EFF2EC41 (.leaf 0x265E) (.leaf 0xFD05))))) (.node 0xF8177C6D44 (.node 0xF8013E7253 (.node 0xF7F262E639 (.leaf 0x1800) (.node 0xF7FD435F53 (.leaf 0x1F3C) (.leaf 0x1369))) (.node 0xF8081228CC (.node 0xF8024C6953 (.leaf 0x136E) (.leaf 0x136A)) (.node 0xF809C59E7D (.leaf 0x818) (.leaf 0x1F587)))) (.node 0xF8179359F2 (.node 0xF8178E619B (.node 0xF8178558ED (.leaf 0x1E81D) (.leaf 0x1E801)) (.node 0xF81790BAA5 (.leaf 0x1E844) (.leaf 0x1E8B9))) (.node 0xF81A1BFE91 (.node 0xF817B1A716 (.leaf 0x1E854) (.leaf 0xFB84)) (.node 0xF81B619FF4 (.leaf 0xFB6A) (.leaf 0x153D)))))
def nameTree_1801 : NameTree := .node 0xF8487B6C1D (.node 0xF8458D801D (.node 0xF8458D741D (.node 0xF8458D701D (.leaf 0x164D) (.leaf 0x164A)) (.node 0xF8458D7A1D (.leaf 0x164C) (.leaf 0x1649))) (.node 0xF848746C1D (.node 0xF846B3CC48 (.leaf 0x1648) (.leaf 0x26A0)) (.node 0xF84878701D (.leaf 0x18EF) (.leaf 0x15F2)))) (.node 0xF8487B801D (.node 0xF8487B741D (.node 0xF8487B701D (.leaf 0x15C9) (.leaf 0x15C6)) (.node 0xF8487B7A1D (.leaf 0x15C8) (.leaf 0x15C5))) (.node 0xF8488A801D (.node 0xF8488A6C1D (.leaf 0x15C4) (.leaf 0x18F0)) (.node 0xF84916ADF5 (.leaf 0x18ED) (.leaf 0x74F))))
def nameTree_1802 : NameTree := .node 0xF8458D6C1D (.node 0xF8447B7A1D (.node 0xF8444D5A96 (.node 0xF82C336C78 (.leaf 0x12E) (.node 0xF83F6FE0DC (.leaf 0x1E8CF) (.leaf 0x2C40))) (.node 0xF8447B701D (.node 0xF8447B6C1D (.leaf 0x27AB) (.leaf 0x1666)) (.node 0xF8447B741D (.leaf 0x1663) (.leaf 0x1665)))) (.node 0xF8457F701D (.node 0xF84578701D (.node 0xF8447B801D (.leaf 0x1662) (.leaf 0x1661)) (.node 0xF8457F6C1D (.leaf 0x1453) (.leaf 0x162D))) (.node 0xF8457F7A1D (.node 0xF8457F741D (.leaf 0x162A) (.leaf 0x162C)) (.node 0xF8457F801D (.leaf 0x1629) (.leaf 0x1628))))) (nameTree_1801)
def nameTree_1803 : NameTree := .node 0xF84C7E801D (.node 0xF84C7E6C1D (.node 0xF84C7B7A1D (.node 0xF84C7B741D (.leaf 0x15F7) (.leaf 0x15F9)) (.node 0xF84C7B801D (.leaf 0x15F6) (.leaf 0x15F5))) (.node 0xF84C7E741D (.node 0xF84C7E701D (.leaf 0x1600) (.leaf 0x15FD)) (.node 0xF84C7E7A1D (.leaf 0x15FF) (.leaf 0x15FC)))) (.node 0xF84D7B741D (.node 0xF84D7B6C1D (.node 0xF84D78701D (.leaf 0x15FB) (.leaf 0x1625)) (.node 0xF84D7B701D (.leaf 0x1633) (.leaf 0x1630))) (.node 0xF84D7B801D (.node 0xF84D7B7A1D (.leaf 0x1632) (.leaf 0x162F)) (.node 0xF84D85C144 (.leaf 0x162E) (.leaf 0x2530))))
def nameTree_1804 : NameTree := .node 0xF84C7B701D (.node 0xF84B7D6C1D (.node 0xF8498A741D (.node 0xF8498A6C1D (.leaf 0x1436) (.node 0xF8498A701D (.leaf 0x15DB) (.leaf 0x15D8))) (.node 0xF8498A801D (.node 0xF8498A7A1D (.leaf 0x15DA) (.leaf 0x15D7)) (.node 0xF84B78701D (.leaf 0x15D6) (.leaf 0x1618)))) (.node 0xF84B7D801D (.node 0xF84B7D741D (.node 0xF84B7D701D (.leaf 0x1621) (.leaf 0x161E)) (.node 0xF84B7D7A1D (.leaf 0x1620) (.leaf 0x161D))) (.node 0xF84BB5C558 (.node 0xF84B8A6C1D (.leaf 0x161C) (.leaf 0x18F2)) (.node 0xF84C7B6C1D (.leaf 0x1D333) (.leaf 0x15FA))))) (nameTree_1803)
def nameTree_1805 : NameTree := .node 0xF855867A1D (.node 0xF8557F801D (.node 0xF8557F741D (.node 0xF8557F701D (.leaf 0x163F) (.leaf 0x163C)) (.node 0xF8557F7A1D (.leaf 0x163E) (.leaf 0x163B))) (.node 0xF85586701D (.node 0xF855866C1D (.leaf 0x163A) (.leaf 0x1660)) (.node 0xF85586741D (.leaf 0x165D) (.leaf 0x165F)))) (.node 0xF85587741D (.node 0xF855876C1D (.node 0xF85586801D (.leaf 0x165C) (.leaf 0x165B)) (.node 0xF85587701D (.leaf 0x15E7) (.leaf 0x15E4))) (.node 0xF85587801D (.node 0xF855877A1D (.leaf 0x15E6) (.leaf 0x15E3)) (.node 0xF85878701D (.leaf 0x15E2) (.leaf 0x15D3))))
def nameTree_1806 : NameTree := .node 0xF8557F6C1D (.node 0xF8547B741D (.node 0xF85378701D (.node 0xF84F78701D (.leaf 0x160B) (.node 0xF85178701D (.leaf 0x1605) (.leaf 0x15EB))) (.node 0xF8547B6C1D (.node 0xF85478701D (.leaf 0x15CD) (.leaf 0x1651)) (.node 0xF8547B701D (.leaf 0x1659) (.leaf 0x1656)))) (.node 0xF8557B701D (.node 0xF8547B801D (.node 0xF8547B7A1D (.leaf 0x1658) (.leaf 0x1655)) (.node 0xF8557B6C1D (.leaf 0x1654) (.leaf 0x15E1))) (.node 0xF8557B7A1D (.node 0xF8557B741D (.leaf 0x15DE) (.leaf 0x15E0)) (.node 0xF8557B801D (.leaf 0x15DD) (.leaf 0x15DC))))) (nameTree_1805)
def nameTree_1807 : NameTree := .node 0xF86C23F3F0 (.node 0xF86276E5A3 (.node 0xF86262D1A3 (.node 0xF85B78701D (.leaf 0x1611) (.node 0xF85BBD6647 (.leaf 0x1643) (.leaf 0x1D9DD))) (.node 0xF86262E5A3 (.node 0xF86262D9A3 (.leaf 0x11038) (.leaf 0x11043)) (.node 0xF8626AD9A3 (.leaf 0x11045) (.leaf 0x1103B)))) (.node 0xF86A348FD4 (.node 0xF866B74395 (.node 0xF8650BE611 (.leaf 0x1103D) (.leaf 0xA870)) (.node 0xF86A348BD4 (.leaf 0xA713) (.leaf 0x12A0))) (.node 0xF86A3499D4 (.node 0xF86A3493D4 (.leaf 0x12A5) (.leaf 0x12A2)) (.node 0xF86A349FD4 (.leaf 0x12A6) (.leaf 0x12A1))))) (.node 0xF87B427D8B (.node 0xF87135458A (.node 0xF86F9E4D2B (.leaf 0x10E4) (.node 0xF8701C0EE5 (.leaf 0xE0F) (.leaf 0x122F2))) (.node 0xF8787EF7B6 (.node 0xF875AA03F1 (.leaf 0x1D006) (.leaf 0x1F63B)) (.node 0xF878A11C64 (.leaf 0xB22) (.leaf 0x8D6)))) (.node 0xF88A991264 (.node 0xF8839FDDBD (.node 0xF87CD2FB1C (.leaf 0x8F1) (.leaf 0x1D81E)) (.node 0xF888991464 (.leaf 0x10A7D) (.leaf 0x8D7))) (.node 0xF88C97B784 (.node 0xF88B991664 (.leaf 0x8D5) (.leaf 0x615)) (.node 0xF88D87EDD5 (.leaf 0x1D6BA) (.leaf 0xFC75)))))
def nameTree_1808 : NameTree := .node 0xF8DDA51876 (.node 0xF8C5F420D1 (.node 0xF8C5EE20D1 (.node 0xF8C5EB20D1 (.leaf 0x1A20) (.leaf 0x1A38)) (.node 0xF8C5EF20D1 (.leaf 0x1A48) (.leaf 0x1A32))) (.node 0xF8D1C34389 (.node 0xF8CE375887 (.leaf 0x1A40) (.leaf 0x16CA)) (.node 0xF8DCA51876 (.leaf 0xFD8A) (.leaf 0xFA7)))) (.node 0xF8DFB71A2D (.node 0xF8DEA51876 (.node 0xF8DEA11876 (.leaf 0xF96) (.leaf 0xF9C)) (.node 0xF8DEB71876 (.leaf 0xFA2) (.leaf 0xFAB))) (.node 0xF8E1A51876 (.node 0xF8E10B3788 (.leaf 0x29AF) (.leaf 0x2321)) (.node 0xF8E3E44656 (.leaf 0xF93) (.leaf 0x17C9))))
def nameTree_1809 : NameTree := .node 0xF8C5E620D1 (.node 0xF8A6B0B528 (.node 0xF89253CF27 (.node 0xF88EECC16B (.leaf 0x8F3) (.node 0xF8909D1664 (.leaf 0x12164) (.leaf 0x6E7))) (.node 0xF89E996D84 (.node 0xF893C67305 (.leaf 0x1DE7) (.leaf 0x1AB)) (.node 0xF8A4ACB11E (.leaf 0x4DF9) (.leaf 0x328E)))) (.node 0xF8B92C32AF (.node 0xF8B52497B7 (.node 0xF8A71159E7 (.leaf 0x3286) (.leaf 0x10852)) (.node 0xF8B6D8FA31 (.leaf 0x3F1) (.leaf 0x2162))) (.node 0xF8C5E120D1 (.node 0xF8C5DE20D1 (.leaf 0xFC08) (.leaf 0x1A27)) (.node 0xF8C5E320D1 (.leaf 0x1A3A) (.leaf 0x1A49))))) (nameTree_1808)
def nameTree_1810 : NameTree := .node 0xF917856CED (.node 0xF91603470E (.node 0xF91502470E (.node 0xF91502460E (.leaf 0x12086) (.leaf 0x287F)) (.node 0xF91503470E (.leaf 0x28BF) (.leaf 0x28DF))) (.node 0xF9178468F7 (.node 0xF9177FB5F7 (.leaf 0x28EF) (.leaf 0x1E825)) (.node 0xF91784B444 (.leaf 0x1E851) (.leaf 0x1E84F)))) (.node 0xF917936DF2 (.node 0xF91786BFA0 (.node 0xF917865F4E (.leaf 0x1E802) (.leaf 0x1E83A)) (.node 0xF9178E599B (.leaf 0x1E83C) (.leaf 0x1E845))) (.node 0xF9200A3DC0 (.node 0xF91B512931 (.leaf 0x1E855) (.leaf 0x712)) (.node 0xF920515B4E (.leaf 0x1D87A) (.leaf 0x1913))))
def nameTree_1811 : NameTree := .node 0xF9141FD473 (.node 0xF8EEA51876 (.node 0xF8E8B61876 (.node 0xF8E8A41876 (.leaf 0xF91) (.node 0xF8E8AB1876 (.leaf 0xF94) (.leaf 0xF9E))) (.node 0xF8EDA51876 (.node 0xF8EAA51876 (.leaf 0xF99) (.leaf 0xFA5)) (.node 0xF8EDB01876 (.leaf 0xFB4) (.leaf 0xFB5)))) (.node 0xF8FFDD1724 (.node 0xF8EEB11876 (.node 0xF8EEB01876 (.leaf 0xFA0) (.leaf 0xFA9)) (.node 0xF8F4A51876 (.leaf 0xF9A) (.leaf 0xFAE))) (.node 0xF90A11FDEB (.node 0xF903BFDFBF (.leaf 0x6EC) (.leaf 0xFC14)) (.node 0xF90C8713BF (.leaf 0x2EC6) (.leaf 0x8E9))))) (nameTree_1810)
def nameTree_1812 : NameTree := .node 0xF93D7493CB (.node 0xF938982A74 (.node 0xF9374A684E (.node 0xF9344EA4C3 (.leaf 0x191E) (.leaf 0xFC94)) (.node 0xF9388F2C27 (.leaf 0x190A) (.leaf 0x1D726))) (.node 0xF93B9B2BD0 (.node 0xF93AE1AE87 (.leaf 0x1D71E) (.leaf 0x1F93C)) (.node 0xF93BB1E32D (.leaf 0x1D725) (.leaf 0x33A7)))) (.node 0xF95260B475 (.node 0xF940E7FDD8 (.node 0xF93D7A99CB (.leaf 0xA8BD) (.leaf 0xA8BB)) (.node 0xF94F40835A (.leaf 0x1CE4) (.leaf 0x1012F))) (.node 0xF954429F83 (.node 0xF952CD95F8 (.leaf 0x29B3) (.leaf 0x2B6A)) (.node 0xF95BBC5F47 (.leaf 0x111C9) (.leaf 0x1D9DC))))
def nameTree_1813 : NameTree := .node 0xF9325B5B4E (.node 0xF929515B4E (.node 0xF925515B4E (.node 0xF922515B4E (.leaf 0x1907) (.node 0xF9236EBA86 (.leaf 0x190E) (.leaf 0x1D98C))) (.node 0xF928515B4E (.node 0xF92746F52F (.leaf 0x1904) (.leaf 0x1F50C)) (.node 0xF92944DCD8 (.leaf 0x1909) (.leaf 0x8F0)))) (.node 0xF92E515B4E (.node 0xF92C505B4E (.node 0xF92A3463F7 (.leaf 0x1902) (.leaf 0x390)) (.node 0xF92D76AD77 (.leaf 0x1905) (.leaf 0x270C))) (.node 0xF9315C5B4E (.node 0xF931515B4E (.leaf 0x1911) (.leaf 0x1919)) (.node 0xF932515B4E (.leaf 0x191A) (.leaf 0x190C))))) (nameTree_1812)
def nameTree_1814 : NameTree := .node 0xF996055D03 (.node 0xF97DDFA610 (.node 0xF964634854 (.node 0xF95FFF17E9 (.leaf 0x770) (.node 0xF9627C4437 (.leaf 0x25FD) (.leaf 0x135E))) (.node 0xF9682DF1BE (.node 0xF967419607 (.leaf 0xFD81) (.leaf 0x1A54)) (.node 0xF977B8E16B (.leaf 0xB75) (.leaf 0x1F882)))) (.node 0xF98D0DD40A (.node 0xF985867879 (.node 0xF98018F74B (.leaf 0x1D094) (.leaf 0x3027)) (.node 0xF98651D53D (.leaf 0x2B44) (.leaf 0x25C))) (.node 0xF9917818B5 (.node 0xF98EAB7074 (.leaf 0x1B35) (.leaf 0x1F0DE)) (.node 0xF99289E5ED (.leaf 0xFBA5) (.leaf 0xFD6))))) (.node 0xF99C055D03 (.node 0xF997FD5D03 (.node 0xF997015D03 (.leaf 0x1C14) (.node 0xF997A32974 (.leaf 0x1C07) (.leaf 0x1037))) (.node 0xF99A055D03 (.node 0xF998135D03 (.leaf 0x1C4F) (.leaf 0x1C19)) (.node 0xF99B055D03 (.leaf 0x1C12) (.leaf 0x1C04)))) (.node 0xF99F055D03 (.node 0xF99DA6068B (.node 0xF99D1459E7 (.leaf 0x1C1E) (.leaf 0x10853)) (.node 0xF99F015D03 (.leaf 0x11663) (.leaf 0x1C02))) (.node 0xF9A2005D03 (.node 0xF9A1055D03 (.leaf 0x1C01) (.leaf 0x1C16)) (.node 0xF9A2125D03 (.leaf 0x1C05) (.leaf 0x1C09)))))
def nameTree_1815 : NameTree := .node 0xF9E027814F (.node 0xF9DB71E5DB (.node 0xF9D3323AE7 (.node 0xF9CCAACF30 (.leaf 0x1F1A9) (.leaf 0x1F643)) (.node 0xF9D5D32B0E (.leaf 0xC7A) (.leaf 0x1D1DA))) (.node 0xF9DEFC2FC6 (.node 0xF9DEDC1EE0 (.leaf 0x2656) (.leaf 0x25E6)) (.node 0xF9DF281AD4 (.leaf 0x120D5) (.leaf 0x103C8)))) (.node 0xF9EBFA6EE2 (.node 0xF9E71821B6 (.node 0xF9E233794F (.leaf 0x1D7C0) (.leaf 0x1D7B0)) (.node 0xF9E8AFBD24 (.leaf 0x1242B) (.leaf 0x2ED5))) (.node 0xF9ECA13EC0 (.node 0xF9EBFC81CF (.leaf 0xFC1B) (.leaf 0xFBC1)) (.node 0xF9ED27814F (.leaf 0xE0E) (.leaf 0x1D7BF))))
def nameTree_1816 : NameTree := .node 0xF9CAE6D775 (.node 0xF9A834ABCE (.node 0xF9A7015D03 (.node 0xF9A4015D03 (.leaf 0x1DA71) (.node 0xF9A4055D03 (.leaf 0x1C10) (.leaf 0x1C0F))) (.node 0xF9A80C5D03 (.node 0xF9A8015D03 (.leaf 0x1C21) (.leaf 0x1C0B)) (.node 0xF9A80D5D03 (.leaf 0x1C17) (.leaf 0x1C4D)))) (.node 0xF9B10D541A (.node 0xF9ABDC0418 (.node 0xF9AAE8096F (.leaf 0x1D107) (.leaf 0x216C)) (.node 0xF9B10D311A (.leaf 0x2167) (.leaf 0x12419))) (.node 0xF9C7067F87 (.node 0xF9B312A907 (.leaf 0x12422) (.leaf 0x1B000)) (.node 0xF9CAE4407C (.leaf 0x1F54) (.leaf 0xA6F3))))) (nameTree_1815)
def nameTree_1817 : NameTree := .node 0xFA424589D6 (.node 0xFA3BCC5AAE (.node 0xFA288076CD (.node 0xFA2480DD0B (.leaf 0xA768) (.leaf 0x1D1D8)) (.node 0xFA2BEB2E64 (.leaf 0x2AF0) (.leaf 0x1F447))) (.node 0xFA40913EEE (.node 0xFA3EC49229 (.leaf 0x5D1) (.leaf 0x49C)) (.node 0xFA41CC5AAE (.leaf 0x2638) (.leaf 0x5D7)))) (.node 0xFA46CC53AE (.node 0xFA444D52E6 (.node 0xFA43558775 (.leaf 0x2297) (.leaf 0x2296)) (.node 0xFA44C84CAE (.leaf 0xBF8) (.leaf 0x5DB))) (.node 0xFA48181C28 (.node 0xFA47DC54AE (.leaf 0x5DE) (.leaf 0x5E0)) (.node 0xFA4AD64CAE (.leaf 0x332B) (.leaf 0x5E7))))
def nameTree_1818 : NameTree := .node 0xFA1CDD34EA (.node 0xFA081AC71B (.node 0xF9F1208D4F (.node 0xF9EDB8C724 (.leaf 0x1D7C1) (.node 0xF9EF27874F (.leaf 0x2ED6) (.leaf 0x1D7BA))) (.node 0xFA00F27F60 (.node 0xF9FE2161AD (.leaf 0x1D7BD) (.leaf 0x4E8)) (.node 0xFA017B7DCA (.leaf 0x29EF) (.leaf 0x12109)))) (.node 0xFA165A9E65 (.node 0xFA16034765 (.node 0xFA1603470E (.leaf 0x75C) (.leaf 0x28F7)) (.node 0xFA16039E65 (.leaf 0x28FB) (.leaf 0x28FD))) (.node 0xFA178E6D9B (.node 0xFA178061F2 (.leaf 0x28FE) (.leaf 0x1E85A)) (.node 0xFA179160ED (.leaf 0x1E846) (.leaf 0x1E808))))) (nameTree_1817)
def nameTree_1819 : NameTree := .node 0xFA74925E5C (.node 0xFA5C968EA8 (.node 0xFA58D74A44 (.node 0xFA570AD6E9 (.leaf 0x10B45) (.leaf 0x1E72)) (.node 0xFA5C84EAD1 (.leaf 0x1F63A) (.leaf 0xAA7B))) (.node 0xFA5DE30376 (.node 0xFA5DD7720D (.leaf 0x1FCE) (.leaf 0x1D9D3)) (.node 0xFA6DEDD61F (.leaf 0x1F37B) (.leaf 0x1D12)))) (.node 0xFA8068A315 (.node 0xFA7957A315 (.node 0xFA76CD2440 (.leaf 0x1F5B) (.leaf 0x10A38)) (.node 0xFA8062A315 (.leaf 0x16F36) (.leaf 0x16F3E))) (.node 0xFA8375C6C3 (.node 0xFA82B03F70 (.leaf 0x16F40) (.leaf 0xFE6A)) (.node 0xFA8379C6C3 (.leaf 0x11293) (.leaf 0x11294))))
def nameTree_1820 : NameTree := .node 0xFA560524F1 (.node 0xFA508A3300 (.node 0xFA4DCC5AAE (.node 0xFA4D191BF1 (.leaf 0x10B4C) (.node 0xFA4DC85CAE (.leaf 0x10B4D) (.leaf 0x5EA))) (.node 0xFA4FC85CAE (.node 0xFA4F4AC3CA (.leaf 0x5D8) (.leaf 0x10B82)) (.node 0xFA508A2F00 (.leaf 0x5D5) (.leaf 0x11127)))) (.node 0xFA50BB9F01 (.node 0xFA508A3D00 (.node 0xFA508A3700 (.leaf 0x1112C) (.leaf 0x11128)) (.node 0xFA508A4300 (.leaf 0x1112E) (.leaf 0x1112A))) (.node 0xFA52D64AAE (.node 0xFA527EE775 (.leaf 0x66B) (.leaf 0x2ABE)) (.node 0xFA530524F1 (.leaf 0x5D9) (.leaf 0x10B55))))) (nameTree_1819)
def nameTree_1821 : NameTree := .node 0xFACD30A14C (.node 0xFABF9257FF (.node 0xFAB7F845C5 (.node 0xFAB74368C7 (.leaf 0xFDC3) (.leaf 0xFB31)) (.node 0xFABA9D062A (.leaf 0xFB38) (.leaf 0x1C7D))) (.node 0xFAC424AA78 (.node 0xFABFE8548E (.leaf 0x1D83F) (.leaf 0xFB7F)) (.node 0xFACC019769 (.leaf 0x1F3EE) (.leaf 0x1BC9D)))) (.node 0xFADC44893E (.node 0xFACD44974C (.node 0xFACD44934C (.leaf 0x117F) (.leaf 0x11A6)) (.node 0xFAD788D186 (.leaf 0x1181) (.leaf 0xA9DE))) (.node 0xFAE335BA3B (.node 0xFADF7B6640 (.leaf 0x8F2) (.leaf 0x4F4)) (.node 0xFAEB915957 (.leaf 0xA66C) (.leaf 0x1F65F))))
def nameTree_1822 : NameTree := .node 0xFAB5B701D8 (.node 0xFAA00A5FE7 (.node 0xFA9388FBEA (.node 0xFA8AA65146 (.leaf 0x10158) (.node 0xFA90BB9160 (.leaf 0x1EEA6) (.leaf 0x484))) (.node 0xFA9A830CEE (.node 0xFA97F088C4 (.leaf 0x1D80) (.leaf 0xFCE3)) (.node 0xFA9B5DE3C2 (.leaf 0x2369) (.leaf 0x2732)))) (.node 0xFAAC15C96C (.node 0xFAA157F5A2 (.node 0xFAA154E45A (.leaf 0x10854) (.leaf 0x2FC9)) (.node 0xFAA162F9FE (.leaf 0x2F95) (.leaf 0x2FC8))) (.node 0xFAAF9D9CB9 (.node 0xFAAC320C3B (.leaf 0x3168) (.leaf 0x203C)) (.node 0xFAB04AB564 (.leaf 0x266D) (.leaf 0x4A6))))) (nameTree_1821)
def nameTree_1823 : NameTree := .node 0xFB30DD3EEA (.node 0xFB1F6F2325 (.node 0xFB17B246C0 (.node 0xFB17916849 (.leaf 0x1E809) (.leaf 0x1E80E)) (.node 0xFB1CAF2325 (.leaf 0x16BF) (.leaf 0x1128))) (.node 0xFB21272325 (.node 0xFB1FC59C19 (.leaf 0xA973) (.leaf 0x197)) (.node 0xFB22872325 (.leaf 0x112A) (.leaf 0x1129)))) (.node 0xFB384E6924 (.node 0xFB3614F5D7 (.node 0xFB3578C02F (.leaf 0x1F7) (.leaf 0x2A0B)) (.node 0xFB384E68CD (.leaf 0xA9D0) (.leaf 0xA6AE))) (.node 0xFB4A37B7DF (.node 0xFB41114146 (.leaf 0xA6AF) (.leaf 0x2358)) (.node 0xFB4B26E636 (.leaf 0x246E) (.leaf 0x16D6))))
def nameTree_1824 : NameTree := .node 0xFB179158ED (.node 0xFB1781B9A0 (.node 0xFB17730910 (.node 0xFB11E5BCF7 (.leaf 0x253F) (.node 0xFB14AE1409 (.leaf 0x1F6EC) (.leaf 0x2E23))) (.node 0xFB178059F2 (.node 0xFB177BBFFC (.leaf 0x604) (.leaf 0x1E82C)) (.node 0xFB17805F4E (.leaf 0x1E85B) (.leaf 0x1E85E)))) (.node 0xFB1789BFF7 (.node 0xFB17855FFC (.node 0xFB1783BDF2 (.leaf 0x1E883) (.leaf 0x1E82B)) (.node 0xFB1786619B (.leaf 0x1E804) (.leaf 0x1E836))) (.node 0xFB17905FA5 (.node 0xFB178E5EA0 (.leaf 0x1E827) (.leaf 0x1E848)) (.node 0xFB1790B2A5 (.leaf 0x1E8BD) (.leaf 0x1E8BA))))) (nameTree_1823)
def nameTree_1825 : NameTree := .node 0xFB93982B5B (.node 0xFB9395375B (.node 0xFB93952B5B (.node 0xFB9395275B (.leaf 0xABA3) (.leaf 0xABA5)) (.node 0xFB9395315B (.leaf 0xABA7) (.leaf 0xABA9))) (.node 0xFB9398235B (.node 0xFB9395385B (.leaf 0xABAA) (.leaf 0xABAB)) (.node 0xFB9398275B (.leaf 0xAB76) (.leaf 0xAB78)))) (.node 0xFB9399235B (.node 0xFB9398375B (.node 0xFB9398315B (.leaf 0xAB79) (.leaf 0xAB7A)) (.node 0xFB9398385B (.leaf 0xAB7B) (.leaf 0xAB7C))) (.node 0xFB93992B5B (.node 0xFB9399275B (.leaf 0xAB7D) (.leaf 0xAB7E)) (.node 0xFB9399315B (.leaf 0xAB7F) (.leaf 0xAB80))))
def nameTree_1826 : NameTree := .node 0xFB9395235B (.node 0xFB68DBD984 (.node 0xFB544D003C (.node 0xFB4EA2BDFD (.leaf 0x1D054) (.node 0xFB50E67E2D (.leaf 0x246F) (.leaf 0x120D4))) (.node 0xFB6484FCD4 (.node 0xFB63FC3B1F (.leaf 0xC82) (.leaf 0x1A91)) (.node 0xFB67F74E1F (.leaf 0x18D) (.leaf 0x1A96)))) (.node 0xFB82412680 (.node 0xFB6C2BEFF0 (.node 0xFB6905451F (.leaf 0x1F3E) (.leaf 0x1A92)) (.node 0xFB6DEED0E2 (.leaf 0x10E8) (.leaf 0x168B8))) (.node 0xFB880899EE (.node 0xFB875CB149 (.leaf 0x1D75) (.leaf 0x1252F)) (.node 0xFB8B837208 (.leaf 0x22CC) (.leaf 0x1204C))))) (nameTree_1825)
def nameTree_1827 : NameTree := .node 0xFB93A42B5B (.node 0xFB939F375B (.node 0xFB939F2B5B (.node 0xFB939F275B (.leaf 0xAB8E) (.leaf 0xAB91)) (.node 0xFB939F315B (.leaf 0xAB92) (.leaf 0xAB93))) (.node 0xFB93A4235B (.node 0xFB939F385B (.leaf 0xAB94) (.leaf 0xAB95)) (.node 0xFB93A4275B (.leaf 0xAB9C) (.leaf 0xAB9E)))) (.node 0xFB93A5235B (.node 0xFB93A4375B (.node 0xFB93A4315B (.leaf 0xAB9F) (.leaf 0xABA0)) (.node 0xFB93A4385B (.leaf 0xABA1) (.leaf 0xABA2))) (.node 0xFB93A52B5B (.node 0xFB93A5275B (.leaf 0xABA4) (.leaf 0xABA6)) (.node 0xFB93A8235B (.leaf 0xABA8) (.leaf 0xABB9))))
def nameTree_1828 : NameTree := .node 0xFB939F235B (.node 0xFB939D375B (.node 0xFB939D235B (.node 0xFB9399385B (.leaf 0xAB81) (.node 0xFB939C235B (.leaf 0xAB82) (.leaf 0xAB77))) (.node 0xFB939D2B5B (.node 0xFB939D275B (.leaf 0xAB83) (.leaf 0xAB84)) (.node 0xFB939D315B (.leaf 0xAB85) (.leaf 0xAB86)))) (.node 0xFB939E2B5B (.node 0xFB939E235B (.node 0xFB939D385B (.leaf 0xAB87) (.leaf 0xAB88)) (.node 0xFB939E275B (.leaf 0xAB89) (.leaf 0xAB8A))) (.node 0xFB939E375B (.node 0xFB939E315B (.leaf 0xAB8B) (.leaf 0xAB8C)) (.node 0xFB939E385B (.leaf 0xAB8D) (.leaf 0x13FD))))) (nameTree_1827)
def nameTree_1829 : NameTree := .node 0xFB96052ADE (.node 0xFB93AA2B5B (.node 0xFB93A8375B (.node 0xFB93A82B5B (.leaf 0xABBA) (.node 0xFB93A8315B (.leaf 0xABBB) (.leaf 0xABBC))) (.node 0xFB93AA235B (.node 0xFB93A8385B (.leaf 0xABBD) (.leaf 0xABBE)) (.node 0xFB93AA275B (.leaf 0xABBF) (.leaf 0x13F8)))) (.node 0xFB940120DE (.node 0xFB93AA375B (.node 0xFB93AA315B (.leaf 0x13F9) (.leaf 0x13FA)) (.node 0xFB93AA385B (.leaf 0x13FB) (.leaf 0x13FC))) (.node 0xFB9592B166 (.node 0xFB94052ADE (.leaf 0xFFCE) (.leaf 0xFFD4)) (.node 0xFB960120DE (.leaf 0x1D6A8) (.leaf 0xFFC5))))) (.node 0xFB9E8FBC90 (.node 0xFB975B1FA2 (.node 0xFB96357A7E (.leaf 0xFFCA) (.node 0xFB96A95154 (.leaf 0x10150) (.leaf 0x386))) (.node 0xFB9D1559E7 (.node 0xFB9C5BC13B (.leaf 0x2F75) (.leaf 0x1F5B9)) (.node 0xFB9DB7E524 (.leaf 0x10848) (.leaf 0x2EC2)))) (.node 0xFBAFC49BD4 (.node 0xFBABB15F84 (.node 0xFBA2B0AC7F (.leaf 0x2FC) (.leaf 0x3282)) (.node 0xFBAF1C652D (.leaf 0x12533) (.leaf 0x2907))) (.node 0xFBB5C3A8D4 (.node 0xFBB00AE2DD (.leaf 0x11056) (.leaf 0x1ED1)) (.node 0xFBC6CFDF17 (.leaf 0x11055) (.leaf 0x10600)))))
def nameTree_1830 : NameTree := .node 0xFBC6D2DF17 (.node 0xFBC6D1E517 (.node 0xFBC6D1E217 (.node 0xFBC6D1E117 (.leaf 0x10612) (.leaf 0x10615)) (.node 0xFBC6D1E417 (.leaf 0x10617) (.leaf 0x10618))) (.node 0xFBC6D1E717 (.node 0xFBC6D1E617 (.leaf 0x10619) (.leaf 0x1061A)) (.node 0xFBC6D2DE17 (.leaf 0x1061C) (.leaf 0x1061D)))) (.node 0xFBC6D2E717 (.node 0xFBC6D2E517 (.node 0xFBC6D2E217 (.leaf 0x1061E) (.leaf 0x1061F)) (.node 0xFBC6D2E617 (.leaf 0x10620) (.leaf 0x10621))) (.node 0xFBC6D3DF17 (.node 0xFBC6D3DE17 (.leaf 0x10622) (.leaf 0x10623)) (.node 0xFBC6D3E217 (.leaf 0x10624) (.leaf 0x10625))))
def nameTree_1831 : NameTree := .node 0xFBC6D1E017 (.node 0xFBC6CFE717 (.node 0xFBC6CFE317 (.node 0xFBC6CFE117 (.leaf 0x10601) (.node 0xFBC6CFE217 (.leaf 0x10602) (.leaf 0x10603))) (.node 0xFBC6CFE517 (.node 0xFBC6CFE417 (.leaf 0x10604) (.leaf 0x10605)) (.node 0xFBC6CFE617 (.leaf 0x10606) (.leaf 0x10607)))) (.node 0xFBC6D0E417 (.node 0xFBC6D0DF17 (.node 0xFBC6D0DE17 (.leaf 0x10608) (.leaf 0x10609)) (.node 0xFBC6D0E117 (.leaf 0x1060A) (.leaf 0x1060B))) (.node 0xFBC6D1DE17 (.node 0xFBC6D0E517 (.leaf 0x1060C) (.leaf 0x1060D)) (.node 0xFBC6D1DF17 (.leaf 0x1060E) (.leaf 0x1060F))))) (nameTree_1830)
def nameTree_1832 : NameTree := .node 0xFBC6D6E417 (.node 0xFBC6D5E717 (.node 0xFBC6D5E417 (.node 0xFBC6D5E317 (.leaf 0x10635) (.leaf 0x10636)) (.node 0xFBC6D5E517 (.leaf 0x10637) (.leaf 0x10638))) (.node 0xFBC6D6E117 (.node 0xFBC6D6DE17 (.leaf 0x10639) (.leaf 0x1063A)) (.node 0xFBC6D6E217 (.leaf 0x1063B) (.leaf 0x1063C)))) (.node 0xFBC6D7DE17 (.node 0xFBC6D6E617 (.node 0xFBC6D6E517 (.leaf 0x1063D) (.leaf 0x1063E)) (.node 0xFBC6D6E717 (.leaf 0x1063F) (.leaf 0x10640))) (.node 0xFBC6D7E017 (.node 0xFBC6D7DF17 (.leaf 0x10641) (.leaf 0x10642)) (.node 0xFBC6D7E317 (.leaf 0x10643) (.leaf 0x10644))))
def nameTree_1833 : NameTree := .node 0xFBC6D5DF17 (.node 0xFBC6D4E117 (.node 0xFBC6D3E617 (.node 0xFBC6D3E417 (.leaf 0x10626) (.node 0xFBC6D3E517 (.leaf 0x10627) (.leaf 0x10628))) (.node 0xFBC6D4DE17 (.node 0xFBC6D3E717 (.leaf 0x10629) (.leaf 0x1062A)) (.node 0xFBC6D4DF17 (.leaf 0x1062B) (.leaf 0x1062C)))) (.node 0xFBC6D4E517 (.node 0xFBC6D4E317 (.node 0xFBC6D4E217 (.leaf 0x1062D) (.leaf 0x1062E)) (.node 0xFBC6D4E417 (.leaf 0x1062F) (.leaf 0x10630))) (.node 0xFBC6D4E717 (.node 0xFBC6D4E617 (.leaf 0x10631) (.leaf 0x10632)) (.node 0xFBC6D5DE17 (.leaf 0x10633) (.leaf 0x10634))))) (nameTree_1832)
def nameTree_1834 : NameTree := .node 0xFBC7D0E617 (.node 0xFBC77056BB (.node 0xFBC76E42BB (.node 0xFBC76D42BB (.leaf 0xBAA) (.leaf 0xBB0)) (.node 0xFBC76F42BB (.leaf 0xBB8) (.leaf 0xBA4))) (.node 0xFBC77442BB (.node 0xFBC77142BB (.leaf 0xB8A) (.leaf 0xBB5)) (.node 0xFBC7A3ACC2 (.leaf 0xBAF) (.leaf 0x1D096)))) (.node 0xFBC7D5E217 (.node 0xFBC7D1E017 (.node 0xFBC7D1DE17 (.leaf 0x10648) (.leaf 0x10649)) (.node 0xFBC7D1E117 (.leaf 0x1064B) (.leaf 0x1064C))) (.node 0xFBC7D7DE17 (.node 0xFBC7D6DF17 (.leaf 0x10650) (.leaf 0x10651)) (.node 0xFBC7D7E617 (.leaf 0x10652) (.leaf 0x10653))))
def nameTree_1835 : NameTree := .node 0xFBC76B42BB (.node 0xFBC76342BB (.node 0xFBC75C4ABB (.node 0xFBC6D7E517 (.leaf 0x10645) (.node 0xFBC75C42BB (.leaf 0x10646) (.leaf 0xB86))) (.node 0xFBC75E42BB (.node 0xFBC75C56BB (.leaf 0xB90) (.leaf 0xB94)) (.node 0xFBC76046BB (.leaf 0xB9A) (.leaf 0xB8F)))) (.node 0xFBC76742BB (.node 0xFBC76542BB (.node 0xFBC7644ABB (.leaf 0xBB9) (.leaf 0xB88)) (.node 0xFBC76642BB (.leaf 0xB9C) (.leaf 0xB95))) (.node 0xFBC76942BB (.node 0xFBC76842BB (.leaf 0xBB2) (.leaf 0xBAE)) (.node 0xFBC76A50BB (.leaf 0xBA8) (.leaf 0xB93))))) (nameTree_1834)
def nameTree_1836 : NameTree := .node 0xFBEBAACA64 (.node 0xFBEBA0DE64 (.node 0xFBD7E6D3F4 (.node 0xFBCEC81BA5 (.leaf 0x10654) (.node 0xFBD4C728A5 (.leaf 0x11C55) (.leaf 0x11C54))) (.node 0xFBEBA0CA64 (.node 0xFBE0A3A692 (.leaf 0x23DA) (.leaf 0x1F0AB)) (.node 0xFBEBA0D264 (.leaf 0xA86) (.leaf 0xA90)))) (.node 0xFBEBA6CA64 (.node 0xFBEBA2CA64 (.node 0xFBEBA1CA64 (.leaf 0xA94) (.leaf 0xAAC)) (.node 0xFBEBA3CA64 (.leaf 0xA9A) (.leaf 0xAA6))) (.node 0xFBEBA8D264 (.node 0xFBEBA7CA64 (.leaf 0xA97) (.leaf 0xAB9)) (.node 0xFBEBA9CA64 (.leaf 0xA88) (.leaf 0xA9C))))) (.node 0xFBEBB3CA64 (.node 0xFBEBADCA64 (.node 0xFBEBABCA64 (.leaf 0xA95) (.node 0xFBEBACCA64 (.leaf 0xAB2) (.leaf 0xAAE))) (.node 0xFBEBB1CA64 (.node 0xFBEBAFCA64 (.leaf 0xAA8) (.leaf 0xAAA)) (.node 0xFBEBB2CA64 (.leaf 0xAB0) (.leaf 0xAB8)))) (.node 0xFBEEAEE5D5 (.node 0xFBEBB5CA64 (.node 0xFBEBB4DE64 (.leaf 0xAA4) (.leaf 0xA8A)) (.node 0xFBEBB8CA64 (.leaf 0xAB5) (.leaf 0xAAF))) (.node 0xFC06C7E55F (.node 0xFBEF741A99 (.leaf 0x1F0BB) (.leaf 0x17D5)) (.node 0xFC099AD430 (.leaf 0x1D8F4) (.leaf 0xD7F6)))))
def nameTree_1837 : NameTree := .node 0xFC4AB1DD2D (.node 0xFC3B1EAF79 (.node 0xFC385D05C8 (.node 0xFC32CB2BF6 (.leaf 0x2726) (.leaf 0x1F307)) (.node 0xFC3B097B9B (.leaf 0x1F316) (.leaf 0x290B))) (.node 0xFC3F7BF099 (.node 0xFC3E68CC11 (.leaf 0x1D046) (.leaf 0x1371)) (.node 0xFC46765B9D (.leaf 0x2C35) (.leaf 0xFE38)))) (.node 0xFC5B31E452 (.node 0xFC4EB4486C (.node 0xFC4C213760 (.leaf 0x33DE) (.leaf 0x21D2)) (.node 0xFC50E0F370 (.leaf 0x1047) (.leaf 0x1DA10))) (.node 0xFC5CDE109D (.node 0xFC5CDE0F9D (.leaf 0x1E880) (.leaf 0x10050)) (.node 0xFC5CDF099D (.leaf 0x10051) (.leaf 0x10052))))
def nameTree_1838 : NameTree := .node 0xFC2DE84BA0 (.node 0xFC1782C6A5 (.node 0xFC177E6144 (.node 0xFC13081F02 (.leaf 0xD7F5) (.node 0xFC134321B3 (.leaf 0xFEB7) (.leaf 0x29C6))) (.node 0xFC17825FFC (.node 0xFC17806DF2 (.leaf 0x1E83E) (.leaf 0x1E85C)) (.node 0xFC1782BA4E (.leaf 0x1E86C) (.leaf 0x1E868)))) (.node 0xFC17916CED (.node 0xFC178A68F7 (.node 0xFC1786599B (.leaf 0x1E86A) (.leaf 0x1E837)) (.node 0xFC178DB444 (.leaf 0x1E892) (.leaf 0x1E832))) (.node 0xFC2A14CC5A (.node 0xFC21032957 (.leaf 0x1E80A) (.leaf 0xABE5)) (.node 0xFC2C22EBC5 (.leaf 0x2B34) (.leaf 0x1DEC))))) (nameTree_1837)
def nameTree_1839 : NameTree := .node 0xFC97B3B666 (.node 0xFC8B69A77B (.node 0xFC8A91B628 (.node 0xFC80E76596 (.leaf 0x3023) (.leaf 0xFBD3)) (.node 0xFC8ADF9408 (.leaf 0x1D6C0) (.leaf 0xFBD9))) (.node 0xFC93837FB0 (.node 0xFC8BDD831D (.leaf 0x2B11) (.leaf 0x5AF)) (.node 0xFC97061B85 (.leaf 0xFB2B) (.leaf 0x16825)))) (.node 0xFC9856BF7C (.node 0xFC97B3BAD1 (.node 0xFC97B3B975 (.leaf 0x3287) (.leaf 0x32B0)) (.node 0xFC98480684 (.leaf 0x32A8) (.leaf 0x1D81D))) (.node 0xFC9BF901F2 (.node 0xFC98F78BD9 (.leaf 0x1D34A) (.leaf 0xFB7E)) (.node 0xFC9C673864 (.leaf 0x298A) (.leaf 0x2F86))))
def nameTree_1840 : NameTree := .node 0xFC7C18EEA2 (.node 0xFC5CE5099D (.node 0xFC5CE20D9D (.node 0xFC5CE10E9D (.leaf 0x10053) (.node 0xFC5CE1109D (.leaf 0x10054) (.leaf 0x10055))) (.node 0xFC5CE30B9D (.node 0xFC5CE30A9D (.leaf 0x10056) (.leaf 0x10057)) (.node 0xFC5CE4109D (.leaf 0x10058) (.leaf 0x10059)))) (.node 0xFC68AEB2B2 (.node 0xFC5CE50D9D (.node 0xFC5CE50A9D (.leaf 0x1005A) (.leaf 0x1005B)) (.node 0xFC5CE5109D (.leaf 0x1005C) (.leaf 0x1005D))) (.node 0xFC774711F9 (.node 0xFC6D833913 (.leaf 0xD7D1) (.leaf 0x273C)) (.node 0xFC7998C575 (.leaf 0xFFFC) (.leaf 0x1D091))))) (nameTree_1839)
def nameTree_1841 : NameTree := .node 0xFCD8003A15 (.node 0xFCD17DFE16 (.node 0xFCCC39DE36 (.node 0xFCCB0C2C15 (.leaf 0x1D732) (.leaf 0x1D722)) (.node 0xFCD1358508 (.leaf 0x2CBE) (.leaf 0xFBDE))) (.node 0xFCD60B3415 (.node 0xFCD6003415 (.leaf 0x1DC8) (.leaf 0x1D731)) (.node 0xFCD72F6E89 (.leaf 0x1D733) (.leaf 0x1E17)))) (.node 0xFCE9DD75D1 (.node 0xFCD9F94015 (.node 0xFCD8232E93 (.leaf 0x1D72C) (.leaf 0x2A43)) (.node 0xFCE373E3A9 (.leaf 0x1D72F) (.leaf 0xA672))) (.node 0xFCEFFB1E78 (.node 0xFCEB4DFBEB (.leaf 0x1F4AE) (.leaf 0x25B4)) (.node 0xFCF046F9BC (.leaf 0xFBDB) (.leaf 0x1D1B1))))
def nameTree_1842 : NameTree := .node 0xFCC9003415 (.node 0xFCBA2C618B (.node 0xFCA4630569 (.node 0xFC9F17582E (.leaf 0x12427) (.node 0xFCA2EC66CD (.leaf 0x12431) (.leaf 0x23FE))) (.node 0xFCA96F39D2 (.node 0xFCA8736A9C (.leaf 0x100CC) (.leaf 0x12098)) (.node 0xFCB8A93EC0 (.leaf 0x104DE) (.leaf 0xE2C)))) (.node 0xFCC23DD136 (.node 0xFCBE33D736 (.node 0xFCBA7A39D2 (.leaf 0x1D1E6) (.leaf 0x104F3)) (.node 0xFCC134CA36 (.leaf 0x2CB4) (.leaf 0x2CD8))) (.node 0xFCC52FD236 (.node 0xFCC52BDD36 (.leaf 0x2CC6) (.leaf 0x2CD4)) (.node 0xFCC54E1479 (.leaf 0x2CD2) (.leaf 0x1C81))))) (nameTree_1841)
def nameTree_1843 : NameTree := .node 0xFD299AF6BD (.node 0xFD17866D9B (.node 0xFD0F461950 (.node 0xFCFC3F3ADC (.leaf 0x1F7D) (.node 0xFCFEB075DE (.leaf 0x1F724) (.leaf 0x2143))) (.node 0xFD177E5944 (.node 0xFD177C5FFC (.leaf 0x16F) (.leaf 0x1E81F)) (.node 0xFD177FB8F2 (.leaf 0x1E83F) (.leaf 0x1E829)))) (.node 0xFD26D638EA (.node 0xFD1F400CF3 (.node 0xFD1790694E (.leaf 0x1E838) (.leaf 0x1E8BF)) (.node 0xFD24A2AEA9 (.leaf 0x1D931) (.leaf 0x1F51D))) (.node 0xFD2994FABD (.node 0xFD2959FCBB (.leaf 0x21C) (.leaf 0x1686A)) (.node 0xFD29960ABD (.leaf 0xA6A4) (.leaf 0xA6D8))))) (.node 0xFD299CF6BD (.node 0xFD299B0ABD (.node 0xFD299AFEBD (.leaf 0xA6A1) (.node 0xFD299B04BD (.leaf 0xA6E5) (.leaf 0xA6DF))) (.node 0xFD299BFEBD (.node 0xFD299BF6BD (.leaf 0xA6A3) (.leaf 0xA6AA)) (.node 0xFD299C0ABD (.leaf 0xA6DC) (.leaf 0xA6CD)))) (.node 0xFD299DF6BD (.node 0xFD299D04BD (.node 0xFD299CFEBD (.leaf 0xA6E3) (.leaf 0xA6CE)) (.node 0xFD299D0ABD (.leaf 0xA6E6) (.leaf 0xA6B5))) (.node 0xFD299E0ABD (.node 0xFD299DFEBD (.leaf 0xA6DB) (.leaf 0xA6CF)) (.node 0xFD299FF6BD (.leaf 0xA6BD) (.leaf 0xA6AB)))))
def nameTree_1844 : NameTree := .node 0xFD8203AF65 (.node 0xFD70CDF010 (.node 0xFD620BF274 (.node 0xFD5F3329BD (.leaf 0x1252A) (.leaf 0x2209)) (.node 0xFD6504663F (.leaf 0x2A36) (.leaf 0x1D0A3))) (.node 0xFD7C5675C3 (.node 0xFD711BF889 (.leaf 0xFCDA) (.leaf 0x3028)) (.node 0xFD7CBEE519 (.leaf 0xFE25) (.leaf 0x2BB7)))) (.node 0xFD90E3A533 (.node 0xFD85739F62 (.node 0xFD82B87C04 (.leaf 0x1D6C) (.leaf 0x1232A)) (.node 0xFD857B9F62 (.leaf 0x10864) (.leaf 0x10871))) (.node 0xFDA5EB11B3 (.node 0xFDA3CA89EA (.leaf 0x47C) (.leaf 0x114D9)) (.node 0xFDA8806402 (.leaf 0x2087) (.leaf 0xA650))))
def nameTree_1845 : NameTree := .node 0xFD5EF27246 (.node 0xFD2FAF0C52 (.node 0xFD29A3FEBD (.node 0xFD29A20ABD (.leaf 0xA6DD) (.node 0xFD29A2FEBD (.leaf 0xA6CC) (.leaf 0xA6B7))) (.node 0xFD29A8F6BD (.node 0xFD29A6F6BD (.leaf 0xA6E4) (.leaf 0xA6DA)) (.node 0xFD2FAF0B52 (.leaf 0xA6C2) (.leaf 0x11AA1)))) (.node 0xFD44DD916F (.node 0xFD40085486 (.node 0xFD379F296F (.leaf 0x11AA2) (.leaf 0x1D71F)) (.node 0xFD42BCBBFA (.leaf 0xFE7A) (.leaf 0x1F6AB))) (.node 0xFD4C3889F3 (.node 0xFD4755BDC0 (.leaf 0x332) (.leaf 0x10B80)) (.node 0xFD58737D61 (.leaf 0x2573) (.leaf 0x20A3))))) (nameTree_1844)
def nameTree_1846 : NameTree := .node 0xFDF60B34D4 (.node 0xFDEC429463 (.node 0xFDE64BDD06 (.node 0xFDE1B2A93F (.leaf 0x1E5C) (.leaf 0x7EB)) (.node 0xFDEB44A163 (.leaf 0x66D) (.leaf 0x1804))) (.node 0xFDEEF6566A (.node 0xFDEE0FAE46 (.leaf 0x1802) (.leaf 0x202B)) (.node 0xFDF47FD752 (.leaf 0x25D8) (.leaf 0x21A1)))) (.node 0xFE177CBEF2 (.node 0xFE04CA2A1B (.node 0xFDF881C370 (.leaf 0x12449) (.leaf 0x236E)) (.node 0xFE0B816AEB (.leaf 0x342) (.leaf 0x2792))) (.node 0xFE177FBF4E (.node 0xFE177E6D44 (.leaf 0x1E821) (.leaf 0x1E840)) (.node 0xFE178069A5 (.leaf 0x1E82D) (.leaf 0x1E860))))
def nameTree_1847 : NameTree := .node 0xFDDBACD518 (.node 0xFDBD27C5FD (.node 0xFDBC836673 (.node 0xFDBC82D964 (.leaf 0x1F71F) (.node 0xFDBC835E73 (.leaf 0x22C4) (.leaf 0xB3E))) (.node 0xFDBC8B6673 (.node 0xFDBC837273 (.leaf 0xB48) (.leaf 0xB4C)) (.node 0xFDBC977273 (.leaf 0xB40) (.leaf 0xB42)))) (.node 0xFDC90E5129 (.node 0xFDC84E849A (.node 0xFDC337244C (.leaf 0x205C) (.leaf 0x1F25)) (.node 0xFDC8DDF374 (.leaf 0x292D) (.leaf 0xF0A))) (.node 0xFDD5A4169E (.node 0xFDCA2E0A2B (.leaf 0x1407) (.leaf 0x1248C)) (.node 0xFDD89955B5 (.leaf 0x1DA40) (.leaf 0x1F0C6))))) (nameTree_1846)
def nameTree_1848 : NameTree := .node 0xFE6F5D3DA4 (.node 0xFE609AAEB6 (.node 0xFE5A68C8A2 (.node 0xFE59BC02A1 (.leaf 0x2B71) (.leaf 0x16F52)) (.node 0xFE5D5AC985 (.leaf 0xA98B) (.leaf 0x1D825))) (.node 0xFE6403F6E4 (.node 0xFE622EC297 (.leaf 0x1E5) (.leaf 0x1D864)) (.node 0xFE6A272FB5 (.leaf 0x2FF1) (.leaf 0x2FF4)))) (.node 0xFE8A96AB76 (.node 0xFE780ECCDE (.node 0xFE763E7344 (.leaf 0x3DC) (.leaf 0xFBA3)) (.node 0xFE7BF65EC2 (.leaf 0x1BC96) (.leaf 0x1034))) (.node 0xFE9C7E383D (.node 0xFE9431E63E (.leaf 0x1F82A) (.leaf 0x1F64C)) (.node 0xFE9C7E3C3D (.leaf 0x15C3) (.leaf 0x15C0))))
def nameTree_1849 : NameTree := .node 0xFE54DE8E75 (.node 0xFE279DD280 (.node 0xFE178A62F7 (.node 0xFE1784619B (.leaf 0x1E885) (.node 0xFE17856849 (.leaf 0x1E84B) (.leaf 0x1E806))) (.node 0xFE1F5E323F (.node 0xFE1791B444 (.leaf 0x1E88C) (.leaf 0x1E80C)) (.node 0xFE247D261E (.leaf 0xFCAF) (.leaf 0x6B4)))) (.node 0xFE3F86EC5E (.node 0xFE2FFF675C (.node 0xFE2E677E36 (.leaf 0xFC07) (.leaf 0x654)) (.node 0xFE385E7E2E (.leaf 0x1D100) (.leaf 0xA6B8))) (.node 0xFE520D87D9 (.node 0xFE4C38846D (.leaf 0x1AB2) (.leaf 0x305)) (.node 0xFE52552946 (.leaf 0xA72E) (.leaf 0x1421))))) (nameTree_1848)
def nameTree_1850 : NameTree := .node 0xFEEE96EB8E (.node 0xFEE2945180 (.node 0xFEDF0D45C6 (.node 0xFED7BDCC5D (.leaf 0x16E8) (.leaf 0x240)) (.node 0xFEE23F4195 (.leaf 0x124C3) (.leaf 0xFF05))) (.node 0xFEE57B6E10 (.node 0xFEE433F779 (.leaf 0x10BAC) (.leaf 0x31B)) (.node 0xFEE9D3C06D (.leaf 0x2A7E) (.leaf 0x1F6A1)))) (.node 0xFEFA172F75 (.node 0xFEF43B0F63 (.node 0xFEF384AA8A (.leaf 0x1376) (.leaf 0x1F3E2)) (.node 0xFEF5849CE1 (.leaf 0xE47) (.leaf 0x26E3))) (.node 0xFF000DE5C9 (.node 0xFEFF7EB2B7 (.leaf 0x1F548) (.leaf 0x1F63F)) (.node 0xFF0096EFF9 (.leaf 0x1F9B) (.leaf 0x1377))))
def nameTree_1851 : NameTree := .node 0xFED51479C7 (.node 0xFEA551D35A (.node 0xFE9C804C3D (.node 0xFE9C7E463D (.leaf 0x15C1) (.node 0xFE9C80403D (.leaf 0x15C2) (.leaf 0x161A))) (.node 0xFE9C8F403D (.node 0xFE9C8A3F3D (.leaf 0x1615) (.leaf 0x14A2)) (.node 0xFEA46385BB (.leaf 0x1541) (.leaf 0x2F87)))) (.node 0xFEB9B44F89 (.node 0xFEABF7C28A (.node 0xFEAA1B1C54 (.leaf 0x2F43) (.leaf 0x26C1)) (.node 0xFEB9AE347A (.leaf 0x2187) (.leaf 0x1873))) (.node 0xFEC2EBA465 (.node 0xFEBAA095CE (.leaf 0xA687) (.leaf 0x1D03D)) (.node 0xFED43A80F8 (.leaf 0x1D7DF) (.leaf 0x16B5F))))) (nameTree_1850)
def nameTree_1852 : NameTree := .node 0xFF3B991DDE (.node 0xFF3573E888 (.node 0xFF23D63DFF (.node 0xFF234D4D84 (.leaf 0x22E8) (.leaf 0x12411)) (.node 0xFF33CAED96 (.leaf 0x6CD) (.leaf 0x21F5))) (.node 0xFF3A365D9C (.node 0xFF39991DDE (.leaf 0x1F801) (.leaf 0x18A8)) (.node 0xFF3AAA1DDE (.leaf 0x25BE) (.leaf 0x18A3)))) (.node 0xFF429F07D6 (.node 0xFF41991DDE (.node 0xFF3E991DDE (.leaf 0x18A1) (.leaf 0x189A)) (.node 0xFF4235BA4F (.leaf 0x189D) (.leaf 0x2A4E))) (.node 0xFF43991DDE (.node 0xFF43710D60 (.leaf 0xA51) (.leaf 0x2188)) (.node 0xFF43F5FB52 (.leaf 0x18AA) (.leaf 0x11489))))
def nameTree_1853 : NameTree := .node 0xFF1DCC8AF5 (.node 0xFF1784599B (.node 0xFF0ADE288C (.node 0xFF04C1370F (.leaf 0x2049) (.node 0xFF08FD0071 (.leaf 0x1013F) (.leaf 0x1FD7))) (.node 0xFF0FA975D9 (.node 0xFF0CE57EC5 (.leaf 0xFD56) (.leaf 0xD3B)) (.node 0xFF0FAF7BD9 (.leaf 0xAE3) (.leaf 0xAC4)))) (.node 0xFF178E68F7 (.node 0xFF178D6144 (.node 0xFF178A5BFC (.leaf 0x1E84C) (.leaf 0x1E88D)) (.node 0xFF178D694E (.leaf 0x1E82E) (.leaf 0x1E834))) (.node 0xFF1A3CFBC9 (.node 0xFF191F8991 (.leaf 0x1E84A) (.leaf 0x1014C)) (.node 0xFF1B512931 (.leaf 0x271B) (.leaf 0x71A))))) (nameTree_1852)
def nameTree_1854 : NameTree := .node 0xFF6CCC7226 (.node 0xFF6A84F12C (.node 0xFF6A4400D6 (.node 0xFF68D07226 (.leaf 0x11014) (.leaf 0x11034)) (.node 0xFF6A6B31AA (.leaf 0x1D8B4) (.leaf 0x121F0))) (.node 0xFF6AD27226 (.node 0xFF6ACB7226 (.leaf 0x236D) (.leaf 0x11017)) (.node 0xFF6ADD7226 (.leaf 0x11021) (.leaf 0x1101C)))) (.node 0xFF70D87226 (.node 0xFF6FD77226 (.node 0xFF6FCC7226 (.leaf 0x11028) (.leaf 0x11030)) (.node 0xFF70CC7226 (.leaf 0x11031) (.leaf 0x11023))) (.node 0xFF7F739C2B (.node 0xFF78376FB1 (.leaf 0x1101D) (.leaf 0x272E)) (.node 0xFF89352FA1 (.leaf 0x121F6) (.leaf 0x2A1B))))
def nameTree_1855 : NameTree := .node 0xFF67CC7226 (.node 0xFF524D33DB (.node 0xFF4AA41DDE (.node 0xFF45981DDE (.leaf 0x11487) (.node 0xFF48158D7F (.leaf 0x189B) (.leaf 0x3320))) (.node 0xFF4BA51DDE (.node 0xFF4AB43FC3 (.leaf 0x18A2) (.leaf 0x1043)) (.node 0xFF51991DDE (.leaf 0x189E) (.leaf 0x18A4)))) (.node 0xFF60C87226 (.node 0xFF5ECC7226 (.node 0xFF525B38DB (.leaf 0xE02) (.leaf 0xE05)) (.node 0xFF5FCC7226 (.leaf 0x1102A) (.leaf 0x11019))) (.node 0xFF63CC7226 (.node 0xFF60CC7226 (.leaf 0x1101F) (.leaf 0x11025)) (.node 0xFF66CC7226 (.leaf 0x11016) (.leaf 0x1101B))))) (nameTree_1854)
def nameTree_1856 : NameTree := .node 0xFFE0AA3408 (.node 0xFFD0C34F89 (.node 0xFFCA1ED500 (.node 0xFFC6C0BB76 (.leaf 0x1119E) (.leaf 0x2A60)) (.node 0xFFD0B44F89 (.leaf 0x4DDD) (.leaf 0x45F))) (.node 0xFFD5E362CC (.node 0xFFD0C64F89 (.leaf 0xA683) (.leaf 0xA689)) (.node 0xFFDE307A7D (.leaf 0x25CB) (.leaf 0x24B)))) (.node 0xFFE7D7458C (.node 0xFFE6F4DED4 (.node 0xFFE0E20994 (.leaf 0x12480) (.leaf 0xFB36)) (.node 0xFFE7AA7ACF (.leaf 0x1FA6) (.leaf 0x1AB3))) (.node 0xFFF011B6D0 (.node 0xFFEB0295A6 (.leaf 0xFC87) (.leaf 0x629)) (.node 0xFFF7B986A9 (.leaf 0x1F647) (.leaf 0x2621))))
def nameTree_1857 : NameTree := .node 0xFFC5682475 (.node 0xFFAB493818 (.node 0xFF9AC7944D (.node 0xFF94877A37 (.leaf 0x1F08) (.node 0xFF95EA6C5F (.leaf 0x1F82F) (.leaf 0x29B4))) (.node 0xFF9CFB7A0C (.node 0xFF9BA59713 (.leaf 0x100) (.leaf 0x1BE9)) (.node 0xFFA9EEE048 (.leaf 0x169C0) (.leaf 0x1E881)))) (.node 0xFFB9B44F89 (.node 0xFFB7A5B7D9 (.node 0xFFB6C74B0C (.leaf 0x2140) (.leaf 0x3235)) (.node 0xFFB8C46498 (.leaf 0x8E1) (.leaf 0xF02))) (.node 0xFFBB15EDC0 (.node 0xFFBAED723E (.leaf 0x52D) (.leaf 0x1D93E)) (.node 0xFFC3615A7D (.leaf 0x169D1) (.leaf 0x2AAE))))) (nameTree_1856)
def nameTree_1858 : NameTree := .node 0xFB93A8275B (.node 0xF95E749670 (.node 0xF85A78701D (.node 0xF84978701D (.node 0xF81EBE41AE (nameTree_1800) (nameTree_1802)) (.node 0xF84E78701D (nameTree_1804) (nameTree_1806))) (.node 0xF8E5A51876 (.node 0xF88E992564 (nameTree_1807) (nameTree_1809)) (.node 0xF921515B4E (nameTree_1811) (nameTree_1813)))) (.node 0xFA879F8AFF (.node 0xF9ED32814F (.node 0xF9A2738987 (nameTree_1814) (nameTree_1816)) (.node 0xFA4C091AF1 (nameTree_1818) (nameTree_1820))) (.node 0xFB4D30FD48 (.node 0xFB01B5B01E (nameTree_1822) (nameTree_1824)) (.node 0xFB9399375B (nameTree_1826) (nameTree_1828))))) (.node 0xFCF87FDA17 (.node 0xFBC7D8DF17 (.node 0xFBC6D3E317 (.node 0xFBC6CFE017 (nameTree_1829) (nameTree_1831)) (.node 0xFBC6D7E417 (nameTree_1833) (nameTree_1835))) (.node 0xFC5CE00B9D (.node 0xFC099ADAE3 (nameTree_1836) (nameTree_1838)) (.node 0xFC9F17352E (nameTree_1840) (nameTree_1842)))) (.node 0xFE9C7E403D (.node 0xFDAF7E40C7 (.node 0xFD299FFEBD (nameTree_1843) (nameTree_1845)) (.node 0xFE1781C5F7 (nameTree_1847) (nameTree_1849))) (.node 0xFF43F60152 (.node 0xFF016B4E77 (nameTree_1851) (nameTree_1853)) (.node 0xFF91A645F8 (nameTree_1855) (nameTree_1857)))))
/-- the whole tree -/
def nameTree : NameTree := .node 0x709D618C91 (.node 0x339E9720A9 (.node 0x1E9F9074D8 (.node 0x14DDB02ABC (.node 0xA9C0CE53E (nameTree_57) (nameTree_115)) (.node 0x1B1BD1D664 (nameTree_173) (nameTree_231))) (.node 0x2870404183 (.node 0x2273F33B2D (nameTree_289) (nameTree_347)) (.node 0x2C468E4FF2 (nameTree_405) (nameTree_463)))) (.node 0x51535D0E7A (.node 0x42810F7761 (.node 0x3B356DEF02 (nameTree_521) (nameTree_579)) (.node 0x48AF6B126C (nameTree_637) (nameTree_695))) (.node 0x6322ECED2E (.node 0x59FDA44FD6 (nameTree_753) (nameTree_811)) (.node 0x6CC449CFA3 (nameTree_869) (nameTree_928))))) (.node 0xB638F7CA64 (.node 0x95EA45A9F2 (.node 0x82F9324A0E (.node 0x7A867E7FC8 (nameTree_986) (nameTree_1044)) (.node 0x8C8C60BF00 (nameTree_1102) (nameTree_1160))) (.node 0xA33E61A2CA (.node 0x996E340DCF (nameTree_1218) (nameTree_1276)) (.node 0xACC9B542BE (nameTree_1334) (nameTree_1393)))) (.node 0xDC55A59702 (.node 0xC8554A973A (.node 0xBE85CBF41B (nameTree_1451) (nameTree_1509)) (.node 0xD32647379D (nameTree_1567) (nameTree_1625))) (.node 0xEF1829A145 (.node 0xE72E5D5F7E (nameTree_1683) (nameTree_1741)) (.node 0xF7D6A812CC (nameTree_1799) (nameTree_1858)))))

end Data
