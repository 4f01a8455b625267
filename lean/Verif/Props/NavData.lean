import Verif.Model.Base

/-! Concrete navigation messages (the data words of SFRBX messages), used only in examples and counterexamples. -/

namespace Ublox.Nav.Data

/-- GPS subframe 1, issue of data 5, week 2198. -/
def gps1 : List Byte :=
    [0, 0, 192, 34, 0, 1, 0, 0, 64, 128, 100, 9, 0, 0, 0, 0, 0, 0, 0, 0, 0, 0, 0, 0, 192, 62, 0, 0, 0, 25, 64, 1, 0,
   181, 255, 63, 0, 144, 238, 62]

/-- GPS subframe 2, issue of data 5. -/
def gps2 : List Byte :=
    [0, 0, 192, 34, 0, 2, 0, 0, 128, 203, 126, 1, 0, 126, 56, 4, 192, 186, 12, 41, 128, 64, 19, 0, 0, 158, 21, 13, 64,
   40, 234, 63, 0, 0, 64, 3, 0, 0, 25, 0]

/-- GPS subframe 3, issue of data 5. -/
def gps3 : List Byte :=
    [0, 0, 192, 34, 0, 3, 0, 0, 0, 241, 253, 63, 0, 128, 77, 25, 192, 137, 2, 0, 64, 0, 0, 0, 192, 191, 43, 2, 64,
   242, 255, 63, 128, 76, 234, 63, 0, 179, 126, 1]

/-- GPS subframe 3, issue of data 4. -/
def gps3old : List Byte :=
    [0, 0, 192, 34, 0, 3, 0, 0, 0, 241, 253, 63, 0, 128, 77, 25, 192, 137, 2, 0, 64, 0, 0, 0, 192, 191, 43, 2, 64,
   242, 255, 63, 128, 76, 234, 63, 0, 179, 62, 1]

/-- `gps1` with other parity bits. -/
def gps1par : List Byte :=
    [42, 0, 192, 34, 42, 1, 0, 0, 106, 128, 100, 9, 42, 0, 0, 0, 42, 0, 0, 0, 42, 0, 0, 0, 234, 62, 0, 0, 42, 25, 64,
   1, 42, 181, 255, 63, 42, 144, 238, 62]

/-- A GPS subframe with the impossible number 7. -/
def gpsBad : List Byte :=
    [0, 0, 192, 34, 0, 7, 0, 0, 0, 0, 0, 0, 0, 0, 0, 0, 0, 0, 0, 0, 0, 0, 0, 0, 0, 0, 0, 0, 0, 0, 0, 0, 0, 0, 0, 0, 0,
   0, 0, 0]

/-- Galileo page with word type 0, IODnav 0x105, week 1200. -/
def gal0 : List Byte :=
    [0, 0, 128, 0, 0, 0, 0, 0, 0, 0, 0, 0, 0, 64, 192, 18, 0, 0, 168, 161, 0, 0, 0, 0, 43, 24, 0, 0, 0, 0, 0, 105, 0,
   0, 0, 0, 0, 0, 0, 0]

/-- Galileo page with word type 1, IODnav 0x105, week 1200. -/
def gal1 : List Byte :=
    [232, 67, 65, 1, 235, 50, 164, 248, 103, 69, 35, 1, 0, 0, 0, 162, 0, 0, 0, 128, 0, 0, 0, 0, 236, 38, 0, 0, 0, 0,
   192, 19, 0, 0, 0, 0, 0, 0, 0, 0]

/-- Galileo page with word type 2, IODnav 0x105, week 1200. -/
def gal2 : List Byte :=
    [226, 127, 65, 2, 196, 201, 19, 205, 255, 127, 68, 68, 0, 192, 255, 255, 0, 0, 157, 191, 0, 0, 0, 0, 226, 48, 0,
   0, 0, 0, 192, 177, 0, 0, 0, 0, 0, 0, 0, 0]

/-- Galileo page with word type 3, IODnav 0x105, week 1200. -/
def gal3 : List Byte :=
    [248, 127, 65, 3, 255, 21, 193, 103, 68, 8, 128, 250, 0, 192, 63, 87, 0, 0, 64, 178, 0, 0, 0, 0, 171, 15, 0, 0, 0,
   0, 0, 165, 0, 0, 0, 0, 0, 0, 0, 0]

/-- Galileo page with word type 4, IODnav 0x105, week 1200. -/
def gal4 : List Byte :=
    [255, 69, 65, 4, 15, 7, 0, 250, 238, 240, 255, 163, 0, 0, 255, 7, 0, 0, 193, 186, 0, 0, 0, 0, 103, 5, 0, 0, 0, 0,
   192, 121, 0, 0, 0, 0, 0, 0, 0, 0]

/-- Galileo page with word type 5, IODnav 0x105, week 1200. -/
def gal5 : List Byte :=
    [0, 0, 0, 5, 160, 127, 0, 0, 0, 0, 0, 32, 0, 0, 0, 0, 0, 0, 0, 128, 0, 0, 0, 0, 235, 20, 0, 0, 0, 0, 128, 198, 0,
   0, 0, 0, 0, 0, 0, 0]

/-- Galileo page with word type 6, IODnav 0x105, week 1200. -/
def gal6 : List Byte :=
    [0, 0, 0, 6, 0, 0, 0, 0, 0, 0, 0, 0, 0, 0, 0, 0, 0, 0, 0, 128, 0, 0, 0, 0, 63, 58, 0, 0, 0, 0, 192, 218, 0, 0, 0,
   0, 0, 0, 0, 0]

/-- Galileo word 0 of week 2526, at its beginning. -/
def gal0late : List Byte :=
    [0, 0, 128, 0, 0, 0, 0, 0, 0, 0, 0, 0, 0, 0, 120, 39, 0, 0, 0, 128, 0, 0, 0, 0, 99, 30, 0, 0, 0, 0, 64, 205, 0, 0,
   0, 0, 0, 0, 0, 0]

/-- Galileo word 1 with time of ephemeris 0. -/
def gal1late : List Byte :=
    [0, 64, 65, 1, 235, 50, 164, 248, 103, 69, 35, 1, 0, 0, 0, 162, 0, 0, 0, 128, 0, 0, 0, 0, 232, 12, 0, 0, 0, 0,
   128, 252, 0, 0, 0, 0, 0, 0, 0, 0]

/-- Galileo word 4 with time of clock 0. -/
def gal4late : List Byte :=
    [255, 69, 65, 4, 0, 7, 0, 250, 238, 240, 255, 3, 0, 0, 255, 7, 0, 0, 193, 186, 0, 0, 0, 0, 71, 2, 0, 0, 0, 0, 192,
   157, 0, 0, 0, 0, 0, 0, 0, 0]

/-- Galileo word 0 whose time field says that it contains no time. -/
def gal0notime : List Byte :=
    [0, 0, 0, 0, 0, 0, 0, 0, 0, 0, 0, 0, 0, 64, 192, 18, 0, 0, 168, 161, 0, 0, 0, 0, 231, 32, 0, 0, 0, 0, 64, 2, 0, 0,
   0, 0, 0, 0, 0, 0]

/-- Galileo word 0 of week 2527. -/
def gal0over : List Byte :=
    [0, 0, 128, 0, 0, 0, 0, 0, 0, 0, 0, 0, 0, 0, 124, 39, 0, 0, 0, 128, 0, 0, 0, 0, 168, 48, 0, 0, 0, 0, 192, 23, 0,
   0, 0, 0, 0, 0, 0, 0]

/-- Galileo word 1 with time of ephemeris 420000 s. -/
def gal1over : List Byte :=
    [88, 91, 65, 1, 235, 50, 164, 248, 103, 69, 35, 1, 0, 0, 0, 162, 0, 0, 0, 128, 0, 0, 0, 0, 189, 62, 0, 0, 0, 0,
   64, 169, 0, 0, 0, 0, 0, 0, 0, 0]

/-- GPS subframe 1 with the largest time of clock. -/
def gps1late : List Byte :=
    [0, 0, 192, 34, 0, 1, 0, 0, 64, 128, 100, 9, 0, 0, 0, 0, 0, 0, 0, 0, 0, 0, 0, 0, 192, 62, 0, 0, 192, 255, 127, 1,
   0, 181, 255, 63, 0, 144, 238, 62]

/-- GPS subframe 2 with the largest time of ephemeris. -/
def gps2late : List Byte :=
    [0, 0, 192, 34, 0, 2, 0, 0, 128, 203, 126, 1, 0, 126, 56, 4, 192, 186, 12, 41, 128, 64, 19, 0, 0, 158, 21, 13, 64,
   40, 234, 63, 0, 0, 64, 3, 0, 192, 255, 63]

/-- `gal1` with one bit flipped. -/
def gal1bad : List Byte :=
    [232, 67, 65, 1, 235, 51, 164, 248, 103, 69, 35, 1, 0, 0, 0, 162, 0, 0, 0, 128, 0, 0, 0, 0, 236, 38, 0, 0, 0, 0,
   192, 19, 0, 0, 0, 0, 0, 0, 0, 0]

/-- GLONASS string 1, time mark 7. -/
def glo1 : List Byte :=
    [150, 252, 68, 8, 152, 234, 56, 180, 0, 16, 118, 172, 0, 0, 7, 0, 0, 0, 0, 0, 0, 0, 0, 0, 0, 0, 0, 0, 0, 0, 0, 0,
   0, 0, 0, 0, 0, 0, 0, 0]

/-- GLONASS string 2, time mark 7. -/
def glo2 : List Byte :=
    [150, 0, 69, 16, 229, 143, 60, 180, 0, 200, 169, 2, 0, 0, 7, 0, 0, 0, 0, 0, 0, 0, 0, 0, 0, 0, 0, 0, 0, 0, 0, 0, 0,
   0, 0, 0, 0, 0, 0, 0]

/-- GLONASS string 3, time mark 7. -/
def glo3 : List Byte :=
    [166, 131, 2, 26, 76, 101, 136, 93, 0, 72, 59, 86, 0, 0, 7, 0, 0, 0, 0, 0, 0, 0, 0, 0, 0, 0, 0, 0, 0, 0, 0, 0, 0,
   0, 0, 0, 0, 0, 0, 0]

/-- GLONASS string 4, time mark 7. -/
def glo4 : List Byte :=
    [226, 211, 48, 36, 0, 4, 0, 8, 0, 48, 7, 0, 0, 0, 7, 0, 0, 0, 0, 0, 0, 0, 0, 0, 0, 0, 0, 0, 0, 0, 0, 0, 0, 0, 0,
   0, 0, 0, 0, 0]

/-- GLONASS string 5, time mark 7. -/
def glo5 : List Byte :=
    [0, 0, 0, 40, 0, 0, 0, 0, 0, 16, 4, 0, 0, 0, 7, 0, 0, 0, 0, 0, 0, 0, 0, 0, 0, 0, 0, 0, 0, 0, 0, 0, 0, 0, 0, 0, 0,
   0, 0, 0]

/-- GLONASS string 3, time mark 8. -/
def glo3other : List Byte :=
    [166, 131, 2, 26, 76, 101, 136, 93, 0, 72, 59, 86, 0, 0, 8, 0, 0, 0, 0, 0, 0, 0, 0, 0, 0, 0, 0, 0, 0, 0, 0, 0, 0,
   0, 0, 0, 0, 0, 0, 0]

/-- `glo2` with one data bit flipped. -/
def glo2bad : List Byte :=
    [150, 4, 69, 16, 229, 143, 60, 180, 0, 200, 169, 2, 0, 0, 7, 0, 0, 0, 0, 0, 0, 0, 0, 0, 0, 0, 0, 0, 0, 0, 0, 0, 0,
   0, 0, 0, 0, 0, 0, 0]

end Ublox.Nav.Data
