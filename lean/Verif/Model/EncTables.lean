import Verif.Model.GoLib

/-! The tables of content/extract/encoding.go, copied by a script. -/

namespace Pdfer.Enc

open Pdfer.Go

/-- content/extract/encoding.go:339-402 – `winAnsiEncoding`. -/
def winAnsi : Map Int Int := [

  (32, 32), (33, 33), (34, 34), (35, 35), (36, 36), (37, 37), (38, 38), (39, 39), (40, 40), (41, 41),
  (42, 42), (43, 43), (44, 44), (45, 45), (46, 46), (47, 47), (48, 48), (49, 49), (50, 50), (51, 51),
  (52, 52), (53, 53), (54, 54), (55, 55), (56, 56), (57, 57), (58, 58), (59, 59), (60, 60), (61, 61),
  (62, 62), (63, 63), (64, 64), (65, 65), (66, 66), (67, 67), (68, 68), (69, 69), (70, 70), (71, 71),
  (72, 72), (73, 73), (74, 74), (75, 75), (76, 76), (77, 77), (78, 78), (79, 79), (80, 80), (81, 81),
  (82, 82), (83, 83), (84, 84), (85, 85), (86, 86), (87, 87), (88, 88), (89, 89), (90, 90), (91, 91),
  (92, 92), (93, 93), (94, 94), (95, 95), (96, 96), (97, 97), (98, 98), (99, 99), (100, 100), (101, 101),
  (102, 102), (103, 103), (104, 104), (105, 105), (106, 106), (107, 107), (108, 108), (109, 109), (110, 110), (111, 111),
  (112, 112), (113, 113), (114, 114), (115, 115), (116, 116), (117, 117), (118, 118), (119, 119), (120, 120), (121, 121),
  (122, 122), (123, 123), (124, 124), (125, 125), (126, 126), (128, 8364), (130, 8218), (131, 402), (132, 8222), (133, 8230),
  (134, 8224), (135, 8225), (136, 710), (137, 8240), (138, 352), (139, 8249), (140, 338), (142, 381), (145, 8216), (146, 8217),
  (147, 8220), (148, 8221), (149, 8226), (150, 8211), (151, 8212), (152, 732), (153, 8482), (154, 353), (155, 8250), (156, 339),
  (158, 382), (159, 376), (160, 160), (161, 161), (162, 162), (163, 163), (164, 164), (165, 165), (166, 166), (167, 167),
  (168, 168), (169, 169), (170, 170), (171, 171), (172, 172), (173, 173), (174, 174), (175, 175), (176, 176), (177, 177),
  (178, 178), (179, 179), (180, 180), (181, 181), (182, 182), (183, 183), (184, 184), (185, 185), (186, 186), (187, 187),
  (188, 188), (189, 189), (190, 190), (191, 191), (192, 192), (193, 193), (194, 194), (195, 195), (196, 196), (197, 197),
  (198, 198), (199, 199), (200, 200), (201, 201), (202, 202), (203, 203), (204, 204), (205, 205), (206, 206), (207, 207),
  (208, 208), (209, 209), (210, 210), (211, 211), (212, 212), (213, 213), (214, 214), (215, 215), (216, 216), (217, 217),
  (218, 218), (219, 219), (220, 220), (221, 221), (222, 222), (223, 223), (224, 224), (225, 225), (226, 226), (227, 227),
  (228, 228), (229, 229), (230, 230), (231, 231), (232, 232), (233, 233), (234, 234), (235, 235), (236, 236), (237, 237),
  (238, 238), (239, 239), (240, 240), (241, 241), (242, 242), (243, 243), (244, 244), (245, 245), (246, 246), (247, 247),
  (248, 248), (249, 249), (250, 250), (251, 251), (252, 252), (253, 253), (254, 254), (255, 255)]

/-- content/extract/encoding.go:405-548 – `macRomanEncoding`. -/
def macRoman : Map Int Int := [

  (32, 32), (33, 33), (34, 34), (35, 35), (36, 36), (37, 37), (38, 38), (39, 39), (40, 40), (41, 41),
  (42, 42), (43, 43), (44, 44), (45, 45), (46, 46), (47, 47), (48, 48), (49, 49), (50, 50), (51, 51),
  (52, 52), (53, 53), (54, 54), (55, 55), (56, 56), (57, 57), (58, 58), (59, 59), (60, 60), (61, 61),
  (62, 62), (63, 63), (64, 64), (65, 65), (66, 66), (67, 67), (68, 68), (69, 69), (70, 70), (71, 71),
  (72, 72), (73, 73), (74, 74), (75, 75), (76, 76), (77, 77), (78, 78), (79, 79), (80, 80), (81, 81),
  (82, 82), (83, 83), (84, 84), (85, 85), (86, 86), (87, 87), (88, 88), (89, 89), (90, 90), (91, 91),
  (92, 92), (93, 93), (94, 94), (95, 95), (96, 96), (97, 97), (98, 98), (99, 99), (100, 100), (101, 101),
  (102, 102), (103, 103), (104, 104), (105, 105), (106, 106), (107, 107), (108, 108), (109, 109), (110, 110), (111, 111),
  (112, 112), (113, 113), (114, 114), (115, 115), (116, 116), (117, 117), (118, 118), (119, 119), (120, 120), (121, 121),
  (122, 122), (123, 123), (124, 124), (125, 125), (126, 126), (128, 196), (129, 197), (130, 199), (131, 201), (132, 209),
  (133, 214), (134, 220), (135, 225), (136, 224), (137, 226), (138, 228), (139, 227), (140, 229), (141, 231), (142, 233),
  (143, 232), (144, 234), (145, 235), (146, 237), (147, 236), (148, 238), (149, 239), (150, 241), (151, 243), (152, 242),
  (153, 244), (154, 246), (155, 245), (156, 250), (157, 249), (158, 251), (159, 252), (160, 8224), (161, 176), (162, 162),
  (163, 163), (164, 167), (165, 8226), (166, 182), (167, 223), (168, 174), (169, 169), (170, 8482), (171, 180), (172, 168),
  (173, 8800), (174, 198), (175, 216), (176, 8734), (177, 177), (178, 8804), (179, 8805), (180, 165), (181, 181), (182, 8706),
  (183, 8721), (184, 8719), (185, 960), (186, 8747), (187, 170), (188, 186), (189, 937), (190, 230), (191, 248), (192, 191),
  (193, 161), (194, 172), (195, 8730), (196, 402), (197, 8776), (198, 8710), (199, 171), (200, 187), (201, 8230), (202, 160),
  (203, 192), (204, 195), (205, 213), (206, 338), (207, 339), (208, 8211), (209, 8212), (210, 8220), (211, 8221), (212, 8216),
  (213, 8217), (214, 247), (215, 9674), (216, 255), (217, 376), (218, 8260), (219, 8364), (220, 8249), (221, 8250), (222, 64257),
  (223, 64258), (224, 8225), (225, 183), (226, 8218), (227, 8222), (228, 8240), (229, 194), (230, 202), (231, 193), (232, 203),
  (233, 200), (234, 205), (235, 206), (236, 207), (237, 204), (238, 211), (239, 212), (240, 63743), (241, 210), (242, 218),
  (243, 219), (244, 217), (245, 305), (246, 710), (247, 732), (248, 175), (249, 728), (250, 729), (251, 730), (252, 184),
  (253, 733), (254, 731), (255, 711)]

/-- content/extract/encoding.go:551-619 – `standardEncoding`. -/
def standard : Map Int Int := [

  (32, 32), (33, 33), (34, 34), (35, 35), (36, 36), (37, 37), (38, 38), (39, 8217), (40, 40), (41, 41),
  (42, 42), (43, 43), (44, 44), (45, 45), (46, 46), (47, 47), (48, 48), (49, 49), (50, 50), (51, 51),
  (52, 52), (53, 53), (54, 54), (55, 55), (56, 56), (57, 57), (58, 58), (59, 59), (60, 60), (61, 61),
  (62, 62), (63, 63), (64, 64), (65, 65), (66, 66), (67, 67), (68, 68), (69, 69), (70, 70), (71, 71),
  (72, 72), (73, 73), (74, 74), (75, 75), (76, 76), (77, 77), (78, 78), (79, 79), (80, 80), (81, 81),
  (82, 82), (83, 83), (84, 84), (85, 85), (86, 86), (87, 87), (88, 88), (89, 89), (90, 90), (91, 91),
  (92, 92), (93, 93), (94, 94), (95, 95), (96, 8216), (97, 97), (98, 98), (99, 99), (100, 100), (101, 101),
  (102, 102), (103, 103), (104, 104), (105, 105), (106, 106), (107, 107), (108, 108), (109, 109), (110, 110), (111, 111),
  (112, 112), (113, 113), (114, 114), (115, 115), (116, 116), (117, 117), (118, 118), (119, 119), (120, 120), (121, 121),
  (122, 122), (123, 123), (124, 124), (125, 125), (126, 126), (161, 161), (162, 162), (163, 163), (164, 8260), (165, 165),
  (166, 402), (167, 167), (168, 164), (169, 39), (170, 8220), (171, 171), (172, 8249), (173, 8250), (174, 64257), (175, 64258),
  (177, 8211), (178, 8224), (179, 8225), (180, 183), (182, 182), (183, 8226), (184, 8218), (185, 8222), (186, 8221), (187, 187),
  (188, 8230), (189, 8240), (191, 191), (193, 96), (194, 180), (195, 710), (196, 732), (197, 175), (198, 728), (199, 729),
  (200, 168), (202, 730), (203, 184), (205, 733), (206, 731), (207, 711), (208, 8212), (225, 198), (227, 170), (232, 321),
  (233, 216), (234, 338), (235, 186), (241, 230), (245, 305), (248, 322), (249, 248), (250, 339), (251, 223)]

/-- content/extract/encoding.go:622-694 – `macExpertEncoding`. -/
def macExpert : Map Int Int := [

  (32, 32), (33, 63265), (34, 63224), (35, 63394), (36, 63268), (37, 63204), (38, 63270), (39, 63412), (40, 8317), (41, 8318),
  (42, 8229), (43, 8228), (44, 44), (45, 45), (46, 46), (47, 8260), (48, 63280), (49, 63281), (50, 63282), (51, 63283),
  (52, 63284), (53, 63285), (54, 63286), (55, 63287), (56, 63288), (57, 63289), (58, 58), (59, 59), (61, 63198), (63, 63295),
  (68, 63472), (71, 188), (72, 189), (73, 190), (74, 8539), (75, 8540), (76, 8541), (77, 8542), (78, 8531), (79, 8532),
  (80, 64256), (81, 64257), (82, 64258), (83, 64259), (84, 64260), (85, 8304), (86, 8308), (87, 8309), (88, 8310), (89, 8311),
  (90, 8312), (91, 8313), (92, 8320), (93, 8321), (94, 8322), (95, 8323), (96, 8324), (97, 8325), (98, 8326), (99, 8327),
  (100, 8328), (101, 8329), (102, 185), (103, 178), (104, 179), (105, 8305), (106, 8319), (109, 8729), (110, 63200), (111, 63201),
  (112, 63202)]

/-- content/extract/encoding.go:697-930 – `adobeGlyphList`. -/
def glyphNames : Map Bytes Int := [

  (b!"space", 32), (b!"exclam", 33), (b!"quotedbl", 34), (b!"numbersign", 35), (b!"dollar", 36), (b!"percent", 37),
  (b!"ampersand", 38), (b!"quotesingle", 39), (b!"parenleft", 40), (b!"parenright", 41), (b!"asterisk", 42), (b!"plus", 43),
  (b!"comma", 44), (b!"hyphen", 45), (b!"period", 46), (b!"slash", 47), (b!"zero", 48), (b!"one", 49),
  (b!"two", 50), (b!"three", 51), (b!"four", 52), (b!"five", 53), (b!"six", 54), (b!"seven", 55),
  (b!"eight", 56), (b!"nine", 57), (b!"colon", 58), (b!"semicolon", 59), (b!"less", 60), (b!"equal", 61),
  (b!"greater", 62), (b!"question", 63), (b!"at", 64), (b!"A", 65), (b!"B", 66), (b!"C", 67),
  (b!"D", 68), (b!"E", 69), (b!"F", 70), (b!"G", 71), (b!"H", 72), (b!"I", 73),
  (b!"J", 74), (b!"K", 75), (b!"L", 76), (b!"M", 77), (b!"N", 78), (b!"O", 79),
  (b!"P", 80), (b!"Q", 81), (b!"R", 82), (b!"S", 83), (b!"T", 84), (b!"U", 85),
  (b!"V", 86), (b!"W", 87), (b!"X", 88), (b!"Y", 89), (b!"Z", 90), (b!"bracketleft", 91),
  (b!"backslash", 92), (b!"bracketright", 93), (b!"asciicircum", 94), (b!"underscore", 95), (b!"grave", 96), (b!"a", 97),
  (b!"b", 98), (b!"c", 99), (b!"d", 100), (b!"e", 101), (b!"f", 102), (b!"g", 103),
  (b!"h", 104), (b!"i", 105), (b!"j", 106), (b!"k", 107), (b!"l", 108), (b!"m", 109),
  (b!"n", 110), (b!"o", 111), (b!"p", 112), (b!"q", 113), (b!"r", 114), (b!"s", 115),
  (b!"t", 116), (b!"u", 117), (b!"v", 118), (b!"w", 119), (b!"x", 120), (b!"y", 121),
  (b!"z", 122), (b!"braceleft", 123), (b!"bar", 124), (b!"braceright", 125), (b!"asciitilde", 126), (b!"exclamdown", 161),
  (b!"cent", 162), (b!"sterling", 163), (b!"currency", 164), (b!"yen", 165), (b!"brokenbar", 166), (b!"section", 167),
  (b!"dieresis", 168), (b!"copyright", 169), (b!"ordfeminine", 170), (b!"guillemotleft", 171), (b!"logicalnot", 172), (b!"registered", 174),
  (b!"macron", 175), (b!"degree", 176), (b!"plusminus", 177), (b!"twosuperior", 178), (b!"threesuperior", 179), (b!"acute", 180),
  (b!"mu", 181), (b!"paragraph", 182), (b!"periodcentered", 183), (b!"cedilla", 184), (b!"onesuperior", 185), (b!"ordmasculine", 186),
  (b!"guillemotright", 187), (b!"onequarter", 188), (b!"onehalf", 189), (b!"threequarters", 190), (b!"questiondown", 191), (b!"Agrave", 192),
  (b!"Aacute", 193), (b!"Acircumflex", 194), (b!"Atilde", 195), (b!"Adieresis", 196), (b!"Aring", 197), (b!"AE", 198),
  (b!"Ccedilla", 199), (b!"Egrave", 200), (b!"Eacute", 201), (b!"Ecircumflex", 202), (b!"Edieresis", 203), (b!"Igrave", 204),
  (b!"Iacute", 205), (b!"Icircumflex", 206), (b!"Idieresis", 207), (b!"Eth", 208), (b!"Ntilde", 209), (b!"Ograve", 210),
  (b!"Oacute", 211), (b!"Ocircumflex", 212), (b!"Otilde", 213), (b!"Odieresis", 214), (b!"multiply", 215), (b!"Oslash", 216),
  (b!"Ugrave", 217), (b!"Uacute", 218), (b!"Ucircumflex", 219), (b!"Udieresis", 220), (b!"Yacute", 221), (b!"Thorn", 222),
  (b!"germandbls", 223), (b!"agrave", 224), (b!"aacute", 225), (b!"acircumflex", 226), (b!"atilde", 227), (b!"adieresis", 228),
  (b!"aring", 229), (b!"ae", 230), (b!"ccedilla", 231), (b!"egrave", 232), (b!"eacute", 233), (b!"ecircumflex", 234),
  (b!"edieresis", 235), (b!"igrave", 236), (b!"iacute", 237), (b!"icircumflex", 238), (b!"idieresis", 239), (b!"eth", 240),
  (b!"ntilde", 241), (b!"ograve", 242), (b!"oacute", 243), (b!"ocircumflex", 244), (b!"otilde", 245), (b!"odieresis", 246),
  (b!"divide", 247), (b!"oslash", 248), (b!"ugrave", 249), (b!"uacute", 250), (b!"ucircumflex", 251), (b!"udieresis", 252),
  (b!"yacute", 253), (b!"thorn", 254), (b!"ydieresis", 255), (b!"OE", 338), (b!"oe", 339), (b!"Scaron", 352),
  (b!"scaron", 353), (b!"Ydieresis", 376), (b!"Zcaron", 381), (b!"zcaron", 382), (b!"florin", 402), (b!"circumflex", 710),
  (b!"caron", 711), (b!"breve", 728), (b!"dotaccent", 729), (b!"ring", 730), (b!"ogonek", 731), (b!"tilde", 732),
  (b!"hungarumlaut", 733), (b!"endash", 8211), (b!"emdash", 8212), (b!"quoteleft", 8216), (b!"quoteright", 8217), (b!"quotesinglbase", 8218),
  (b!"quotedblleft", 8220), (b!"quotedblright", 8221), (b!"quotedblbase", 8222), (b!"dagger", 8224), (b!"daggerdbl", 8225), (b!"bullet", 8226),
  (b!"ellipsis", 8230), (b!"perthousand", 8240), (b!"guilsinglleft", 8249), (b!"guilsinglright", 8250), (b!"fraction", 8260), (b!"Euro", 8364),
  (b!"trademark", 8482), (b!"minus", 8722), (b!"fi", 64257), (b!"fl", 64258), (b!"ff", 64256), (b!"ffi", 64259),
  (b!"ffl", 64260), (b!"dotlessi", 305), (b!"Lslash", 321), (b!"lslash", 322)]


end Pdfer.Enc
