import Verif.Py
/-
  Verif.Tables : the code dictionaries of /repo/Python/ades/packUtil.py.
  A Python dict is the list of its items in insertion order; a dict
  comprehension keeps the last item of a duplicated key.
-/
namespace Verif.PackUtil
open Verif

/-- `d[k]` on a dict literal (the last binding of a key wins). -/
def dictGet {α β : Type} [BEq α] (d : List (α × β)) (k : α) : Option β :=
  (d.reverse.find? fun x => x.1 == k).map (·.2)

/-- `{ d[i] : i for i in d }` -/
def dictInvert {α β : Type} (d : List (α × β)) : List (β × α) := d.map fun x => (x.2, x.1)

/-- packUtil.py:24-46 `codeDict` -/
def codeDict : List (Char × Str) :=
  [('P', c! "PHo"),
   (' ', c! "PHO"),
   ('e', c! "ENC"),
   ('C', c! "CCD"),
   ('B', c! "CMO"),
   ('T', c! "MER"),
   ('M', c! "MIC"),
   ('c', c! "ccd"),
   ('E', c! "OCC"),
   ('O', c! "OFF"),
   ('H', c! "PMT"),
   ('N', c! "NOR"),
   ('n', c! "VID")]
/-- packUtil.py:47 `reverseCodeDict` -/
def reverseCodeDict : List (Str × Char) := dictInvert codeDict

/-- packUtil.py:184-244 `catCodes` -/
def catCodes : List (Char × Str) :=
  [(' ', c! "UNK"),
   ('a', c! "USNOA1"),
   ('b', c! "USNOSA1"),
   ('c', c! "USNOA2"),
   ('d', c! "USNOSA2"),
   ('e', c! "UCAC1"),
   ('f', c! "Tyc1"),
   ('g', c! "Tyc2"),
   ('h', c! "GSC1.0"),
   ('i', c! "GSC1.1"),
   ('j', c! "GSC1.2"),
   ('k', c! "GSC2.2"),
   ('l', c! "ACT"),
   ('m', c! "GSCACT"),
   ('n', c! "SDSS8"),
   ('o', c! "USNOB1"),
   ('p', c! "PPM"),
   ('q', c! "UCAC4"),
   ('r', c! "UCAC2"),
   ('s', c! "USNOB2"),
   ('t', c! "PPMXL"),
   ('u', c! "UCAC3"),
   ('v', c! "NOMAD"),
   ('w', c! "CMC14"),
   ('x', c! "Hip2"),
   ('y', c! "Hip1"),
   ('z', c! "GSC"),
   ('A', c! "AC"),
   ('B', c! "SAO1984"),
   ('C', c! "SAO"),
   ('D', c! "AGK3"),
   ('E', c! "FK4"),
   ('F', c! "ACRS"),
   ('G', c! "LickGas"),
   ('H', c! "Ida93"),
   ('I', c! "Perth70"),
   ('J', c! "COSMOS"),
   ('K', c! "Yale"),
   ('L', c! "2MASS"),
   ('M', c! "GSC2.3"),
   ('N', c! "SDSS7"),
   ('O', c! "SSTRC1"),
   ('P', c! "MPOSC3"),
   ('Q', c! "CMC15"),
   ('R', c! "SSTRC4"),
   ('S', c! "URAT1"),
   ('T', c! "URAT2"),
   ('U', c! "Gaia1"),
   ('V', c! "Gaia2"),
   ('W', c! "Gaia3"),
   ('X', c! "Gaia3E"),
   ('Y', c! "UCAC5"),
   ('Z', c! "ATLAS2"),
   ('0', c! "IHW"),
   ('1', c! "PS1_DR1"),
   ('2', c! "PS1_DR2"),
   ('3', c! "Gaia_Int"),
   ('4', c! "GZ"),
   ('5', c! "UBSC"),
   ('6', c! "Gaia_2016")]
/-- packUtil.py:246 `rCatCodes` -/
def rCatCodes : List (Str × Char) := dictInvert catCodes

/-- packUtil.py:51 `validCodes` -/
def validCodes : Str := c! "A PeCBTMcEOHNnRrSsVvXx0"

/-- packUtil.py:55 `validNotes` -/
def validNotes : Str := c! " AaBbcDdEFfGgGgHhIiJKkMmNOoPpRrSsTtUuVWwYyCQXZ2345vzjeL16789"

/-- packUtil.py:64-182 `programCodeSites` (a set; SOHO/STEREO sites included) -/
def programCodeSites : List Str :=
  [c! "010", c! "012", c! "033", c! "071", c! "084", c! "089", c! "094", c! "095", c! "119", c! "121",
   c! "181", c! "186", c! "246", c! "249", c! "260", c! "261", c! "262", c! "266", c! "267", c! "268",
   c! "269", c! "274", c! "290", c! "309", c! "413", c! "561", c! "568", c! "658", c! "673", c! "675",
   c! "688", c! "689", c! "695", c! "696", c! "703", c! "705", c! "807", c! "809", c! "851", c! "950",
   c! "A84", c! "B35", c! "C40", c! "C49", c! "C50", c! "C65", c! "D20", c! "D90", c! "E03", c! "E10",
   c! "E26", c! "F65", c! "G37", c! "G40", c! "G73", c! "G83", c! "G96", c! "H06", c! "I03", c! "I05",
   c! "I11", c! "I18", c! "I22", c! "I89", c! "J04", c! "J13", c! "J75", c! "K91", c! "K92", c! "K93",
   c! "K99", c! "L28", c! "L80", c! "L81", c! "M49", c! "N50", c! "Q54", c! "Q62", c! "Q63", c! "Q64",
   c! "T09", c! "T11", c! "T12", c! "T14", c! "T15", c! "U65", c! "U69", c! "U94", c! "V07", c! "V26",
   c! "V37", c! "V39", c! "W11", c! "W38", c! "W57", c! "W76", c! "W84", c! "W85", c! "W86", c! "W87",
   c! "W88", c! "W98", c! "X06", c! "X07", c! "Z18", c! "Z19", c! "Z20", c! "Z23", c! "Z24", c! "Z28",
   c! "Z31", c! "Z58", c! "Z84"]

end Verif.PackUtil
