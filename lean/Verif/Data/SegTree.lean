import Verif.Data.Enums
/-! Generated by tools/gen_segtree.py: search trees of the classes of the characters that occur in canonical mappings. -/
namespace Data

inductive SegTree (V : Type) where
  | leaf
  | node (lo hi : Nat) (v : V) (l r : SegTree V)

def gcbTree : SegTree GraphemeClusterBreak := (.node 0xD57 0xD57 .Extend (.node 0xA59 0xA5E .Other (.node 0x6C0 0x6D5 .Other (.node 0x5B4 0x5BC .Extend (.node 0x300 0x345 .Extend (.node 0xA8 0xA8 .Other (.node 0x3B 0x7A .Other .leaf .leaf) (.node 0xB4 0x2B9 .Other .leaf .leaf)) (.node 0x4C1 0x4F9 .Other (.node 0x374 0x477 .Other .leaf .leaf) .leaf)) (.node 0x5D0 0x5F2 .Other (.node 0x5C1 0x5C2 .Extend (.node 0x5BF 0x5BF .Extend .leaf .leaf) .leaf) (.node 0x653 0x655 .Extend (.node 0x622 0x64A .Other .leaf .leaf) .leaf))) (.node 0x9C7 0x9C7 .SpacingMark (.node 0x9A1 0x9AF .Other (.node 0x93C 0x93C .Extend (.node 0x915 0x934 .Other .leaf .leaf) (.node 0x958 0x95F .Other .leaf .leaf)) (.node 0x9BE 0x9BE .Extend (.node 0x9BC 0x9BC .Extend .leaf .leaf) .leaf)) (.node 0x9DC 0x9DF .Other (.node 0x9D7 0x9D7 .Extend (.node 0x9CB 0x9CC .SpacingMark .leaf .leaf) .leaf) (.node 0xA3C 0xA3C .Extend (.node 0xA16 0xA38 .Other .leaf .leaf) .leaf)))) (.node 0xC46 0xC48 .Extend (.node 0xB5C 0xB5D .Other (.node 0xB47 0xB48 .SpacingMark (.node 0xB3C 0xB3C .Extend (.node 0xB21 0xB22 .Other .leaf .leaf) (.node 0xB3E 0xB3E .Extend .leaf .leaf)) (.node 0xB56 0xB57 .Extend (.node 0xB4B 0xB4C .SpacingMark .leaf .leaf) .leaf)) (.node 0xBC6 0xBC7 .SpacingMark (.node 0xBBE 0xBBE .Extend (.node 0xB92 0xB94 .Other .leaf .leaf) .leaf) (.node 0xBD7 0xBD7 .Extend (.node 0xBCA 0xBCC .SpacingMark .leaf .leaf) .leaf))) (.node 0xCC7 0xCC8 .SpacingMark (.node 0xCC0 0xCC0 .SpacingMark (.node 0xCBF 0xCBF .Extend (.node 0xC56 0xC56 .Extend .leaf .leaf) .leaf) (.node 0xCC6 0xCC6 .Extend (.node 0xCC2 0xCC2 .Extend .leaf .leaf) .leaf)) (.node 0xD3E 0xD3E .Extend (.node 0xCD5 0xCD6 .Extend (.node 0xCCA 0xCCB .SpacingMark .leaf .leaf) .leaf) (.node 0xD4A 0xD4C .SpacingMark (.node 0xD46 0xD47 .SpacingMark .leaf .leaf) .leaf))))) (.node 0x3099 0x309A .Extend (.node 0x1B35 0x1B35 .SpacingMark (.node 0xF80 0xF81 .Extend (.node 0xDDF 0xDDF .Extend (.node 0xDCF 0xDCF .Extend (.node 0xDCA 0xDCA .Extend .leaf .leaf) (.node 0xDD9 0xDDE .SpacingMark .leaf .leaf)) (.node 0xF71 0xF78 .Extend (.node 0xF40 0xF69 .Other .leaf .leaf) .leaf)) (.node 0x1025 0x1026 .Other (.node 0xF9C 0xFB9 .Extend (.node 0xF90 0xF93 .Extend .leaf .leaf) .leaf) (.node 0x1B05 0x1B12 .Other (.node 0x102E 0x102E .Extend .leaf .leaf) .leaf))) (.node 0x1B43 0x1B43 .SpacingMark (.node 0x1B3C 0x1B3C .Extend (.node 0x1B3B 0x1B3B .SpacingMark (.node 0x1B3A 0x1B3A .Extend .leaf .leaf) .leaf) (.node 0x1B42 0x1B42 .Extend (.node 0x1B3D 0x1B41 .SpacingMark .leaf .leaf) .leaf)) (.node 0x2ADC 0x2ADD .Other (.node 0x2126 0x232A .Other (.node 0x1E00 0x2003 .Other .leaf .leaf) .leaf) (.node 0x3046 0x3094 .Other (.node 0x3008 0x3009 .Other .leaf .leaf) .leaf)))) (.node 0x114B9 0x114B9 .SpacingMark (.node 0x1112E 0x11132 .Extend (.node 0x11099 0x110AB .Other (.node 0xF900 0xFB1D .Other (.node 0x309D 0x9F9C .Other .leaf .leaf) (.node 0xFB1F 0xFB4E .Other .leaf .leaf)) (.node 0x11127 0x11127 .Extend (.node 0x110BA 0x110BA .Extend .leaf .leaf) .leaf)) (.node 0x1134B 0x1134C .SpacingMark (.node 0x11347 0x11347 .SpacingMark (.node 0x1133E 0x1133E .Extend .leaf .leaf) .leaf) (.node 0x114B0 0x114B0 .Extend (.node 0x11357 0x11357 .Extend .leaf .leaf) .leaf))) (.node 0x115B8 0x115BB .SpacingMark (.node 0x114BD 0x114BD .Extend (.node 0x114BB 0x114BC .SpacingMark (.node 0x114BA 0x114BA .Extend .leaf .leaf) .leaf) (.node 0x115AF 0x115AF .Extend (.node 0x114BE 0x114BE .SpacingMark .leaf .leaf) .leaf)) (.node 0x1D16E 0x1D172 .Extend (.node 0x1D165 0x1D165 .Extend (.node 0x1D157 0x1D164 .Other .leaf .leaf) .leaf) (.node 0x20122 0x2FA1D .Other (.node 0x1D1B9 0x1D1C0 .Other .leaf .leaf) .leaf))))))

def wbTree : SegTree WordBreak := (.node 0xD4A 0xD4C .Extend (.node 0x9AF 0x9AF .ALetter (.node 0x38C 0x38C .ALetter (.node 0xD8 0xF6 .ALetter (.node 0x61 0x7A .ALetter (.node 0x41 0x5A .ALetter (.node 0x3C 0x3E .Other (.node 0x3B 0x3B .MidNum .leaf .leaf) .leaf) (.node 0x60 0x60 .Other .leaf .leaf)) (.node 0xB7 0xB7 .MidLetter (.node 0xB4 0xB4 .Other (.node 0xA8 0xA8 .Other .leaf .leaf) .leaf) (.node 0xC0 0xD6 .ALetter .leaf .leaf))) (.node 0x385 0x385 .Other (.node 0x374 0x374 .ALetter (.node 0x300 0x345 .Extend (.node 0xF8 0x2B9 .ALetter .leaf .leaf) .leaf) (.node 0x37E 0x37E .MidNum .leaf .leaf)) (.node 0x387 0x387 .MidLetter (.node 0x386 0x386 .ALetter .leaf .leaf) (.node 0x388 0x38A .ALetter .leaf .leaf)))) (.node 0x5F2 0x5F2 .HebrewLetter (.node 0x5B4 0x5BC .Extend (.node 0x400 0x477 .ALetter (.node 0x3A5 0x3D4 .ALetter (.node 0x38E 0x3A1 .ALetter .leaf .leaf) .leaf) (.node 0x4C1 0x4F9 .ALetter .leaf .leaf)) (.node 0x5C1 0x5C2 .Extend (.node 0x5BF 0x5BF .Extend .leaf .leaf) (.node 0x5D0 0x5EA .HebrewLetter .leaf .leaf))) (.node 0x915 0x934 .ALetter (.node 0x6C0 0x6D3 .ALetter (.node 0x653 0x655 .Extend (.node 0x622 0x64A .ALetter .leaf .leaf) .leaf) (.node 0x6D5 0x6D5 .ALetter .leaf .leaf)) (.node 0x958 0x95F .ALetter (.node 0x93C 0x93C .Extend .leaf .leaf) (.node 0x9A1 0x9A2 .ALetter .leaf .leaf))))) (.node 0xB3E 0xB3E .Extend (.node 0xA2B 0xA2B .ALetter (.node 0x9D7 0x9D7 .Extend (.node 0x9C7 0x9C7 .Extend (.node 0x9BE 0x9BE .Extend (.node 0x9BC 0x9BC .Extend .leaf .leaf) .leaf) (.node 0x9CB 0x9CC .Extend .leaf .leaf)) (.node 0x9DF 0x9DF .ALetter (.node 0x9DC 0x9DD .ALetter .leaf .leaf) (.node 0xA16 0xA1C .ALetter .leaf .leaf))) (.node 0xA59 0xA5B .ALetter (.node 0xA38 0xA38 .ALetter (.node 0xA36 0xA36 .ALetter (.node 0xA32 0xA33 .ALetter .leaf .leaf) .leaf) (.node 0xA3C 0xA3C .Extend .leaf .leaf)) (.node 0xB21 0xB22 .ALetter (.node 0xA5E 0xA5E .ALetter .leaf .leaf) (.node 0xB3C 0xB3C .Extend .leaf .leaf)))) (.node 0xBD7 0xBD7 .Extend (.node 0xB92 0xB94 .ALetter (.node 0xB56 0xB57 .Extend (.node 0xB4B 0xB4C .Extend (.node 0xB47 0xB48 .Extend .leaf .leaf) .leaf) (.node 0xB5C 0xB5D .ALetter .leaf .leaf)) (.node 0xBC6 0xBC7 .Extend (.node 0xBBE 0xBBE .Extend .leaf .leaf) (.node 0xBCA 0xBCC .Extend .leaf .leaf))) (.node 0xCCA 0xCCB .Extend (.node 0xCBF 0xCC2 .Extend (.node 0xC56 0xC56 .Extend (.node 0xC46 0xC48 .Extend .leaf .leaf) .leaf) (.node 0xCC6 0xCC8 .Extend .leaf .leaf)) (.node 0xD3E 0xD3E .Extend (.node 0xCD5 0xCD6 .Extend .leaf .leaf) (.node 0xD46 0xD47 .Extend .leaf .leaf)))))) (.node 0x1FFD 0x2003 .Other (.node 0x1F59 0x1F59 .ALetter (.node 0x1025 0x1026 .Other (.node 0xF40 0xF43 .ALetter (.node 0xDCF 0xDCF .Extend (.node 0xDCA 0xDCA .Extend (.node 0xD57 0xD57 .Extend .leaf .leaf) .leaf) (.node 0xDD9 0xDDF .Extend .leaf .leaf)) (.node 0xF90 0xF93 .Extend (.node 0xF71 0xF81 .Extend (.node 0xF4C 0xF69 .ALetter .leaf .leaf) .leaf) (.node 0xF9C 0xFB9 .Extend .leaf .leaf))) (.node 0x1F18 0x1F1D .ALetter (.node 0x1B35 0x1B43 .Extend (.node 0x1B05 0x1B12 .ALetter (.node 0x102E 0x102E .Extend .leaf .leaf) .leaf) (.node 0x1E00 0x1F15 .ALetter .leaf .leaf)) (.node 0x1F48 0x1F4D .ALetter (.node 0x1F20 0x1F45 .ALetter .leaf .leaf) (.node 0x1F50 0x1F57 .ALetter .leaf .leaf)))) (.node 0x1FC6 0x1FCC .ALetter (.node 0x1FB6 0x1FBC .ALetter (.node 0x1F5F 0x1F7D .ALetter (.node 0x1F5D 0x1F5D .ALetter (.node 0x1F5B 0x1F5B .ALetter .leaf .leaf) .leaf) (.node 0x1F80 0x1FB4 .ALetter .leaf .leaf)) (.node 0x1FBF 0x1FC1 .Other (.node 0x1FBE 0x1FBE .ALetter .leaf .leaf) (.node 0x1FC2 0x1FC4 .ALetter .leaf .leaf))) (.node 0x1FE0 0x1FEC .ALetter (.node 0x1FD6 0x1FDB .ALetter (.node 0x1FD0 0x1FD3 .ALetter (.node 0x1FCD 0x1FCF .Other .leaf .leaf) .leaf) (.node 0x1FDD 0x1FDF .Other .leaf .leaf)) (.node 0x1FF2 0x1FF4 .ALetter (.node 0x1FED 0x1FEF .Other .leaf .leaf) (.node 0x1FF6 0x1FFC .ALetter .leaf .leaf))))) (.node 0xFB40 0xFB41 .HebrewLetter (.node 0x30A6 0x30FA .Katakana (.node 0x3008 0x3009 .Other (.node 0x2190 0x232A .Other (.node 0x212A 0x212B .ALetter (.node 0x2126 0x2126 .ALetter .leaf .leaf) .leaf) (.node 0x2ADC 0x2ADD .Other .leaf .leaf)) (.node 0x3099 0x309A .Extend (.node 0x3046 0x3094 .Other .leaf .leaf) (.node 0x309D 0x309E .Other .leaf .leaf))) (.node 0xFB1F 0xFB1F .HebrewLetter (.node 0xF900 0xFAD9 .Other (.node 0x349E 0x9F9C .Other (.node 0x30FD 0x30FE .Katakana .leaf .leaf) .leaf) (.node 0xFB1D 0xFB1D .HebrewLetter .leaf .leaf)) (.node 0xFB38 0xFB3C .HebrewLetter (.node 0xFB2A 0xFB36 .HebrewLetter .leaf .leaf) (.node 0xFB3E 0xFB3E .HebrewLetter .leaf .leaf)))) (.node 0x11357 0x11357 .Extend (.node 0x11127 0x11132 .Extend (.node 0x11099 0x110AB .ALetter (.node 0xFB46 0xFB4E .HebrewLetter (.node 0xFB43 0xFB44 .HebrewLetter .leaf .leaf) .leaf) (.node 0x110BA 0x110BA .Extend .leaf .leaf)) (.node 0x11347 0x11347 .Extend (.node 0x1133E 0x1133E .Extend .leaf .leaf) (.node 0x1134B 0x1134C .Extend .leaf .leaf))) (.node 0x1D165 0x1D165 .Extend (.node 0x115B8 0x115BB .Extend (.node 0x115AF 0x115AF .Extend (.node 0x114B0 0x114BE .Extend .leaf .leaf) .leaf) (.node 0x1D157 0x1D164 .Other .leaf .leaf)) (.node 0x1D1B9 0x1D1C0 .Other (.node 0x1D16E 0x1D172 .Extend .leaf .leaf) (.node 0x20122 0x2FA1D .Other .leaf .leaf)))))))

end Data
