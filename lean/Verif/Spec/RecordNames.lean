/-!
# The names of records

The list of codes (in hexadecimal) and names as it is printed in biffh.py 354-513.
-/
namespace Xlrd.Spec

def recordLines : List String :=
  ["0000 DIMENSIONS_B2", "0001 BLANK_B2", "0002 INTEGER_B2_ONLY", "0003 NUMBER_B2", "0004 LABEL_B2", "0005 BOOLERR_B2", "0006 FORMULA",
   "0007 STRING_B2", "0008 ROW_B2", "0009 BOF_B2", "000A EOF", "000B INDEX_B2_ONLY", "000C CALCCOUNT", "000D CALCMODE", "000E PRECISION",
   "000F REFMODE", "0010 DELTA", "0011 ITERATION", "0012 PROTECT", "0013 PASSWORD", "0014 HEADER", "0015 FOOTER", "0016 EXTERNCOUNT",
   "0017 EXTERNSHEET", "0018 NAME_B2,5+", "0019 WINDOWPROTECT", "001A VERTICALPAGEBREAKS", "001B HORIZONTALPAGEBREAKS", "001C NOTE",
   "001D SELECTION", "001E FORMAT_B2-3", "001F BUILTINFMTCOUNT_B2", "0020 COLUMNDEFAULT_B2_ONLY", "0021 ARRAY_B2_ONLY", "0022 DATEMODE",
   "0023 EXTERNNAME", "0024 COLWIDTH_B2_ONLY", "0025 DEFAULTROWHEIGHT_B2_ONLY", "0026 LEFTMARGIN", "0027 RIGHTMARGIN", "0028 TOPMARGIN",
   "0029 BOTTOMMARGIN", "002A PRINTHEADERS", "002B PRINTGRIDLINES", "002F FILEPASS", "0031 FONT", "0032 FONT2_B2_ONLY", "0036 TABLEOP_B2",
   "0037 TABLEOP2_B2", "003C CONTINUE", "003D WINDOW1", "003E WINDOW2_B2", "0040 BACKUP", "0041 PANE", "0042 CODEPAGE", "0043 XF_B2",
   "0044 IXFE_B2_ONLY", "0045 EFONT_B2_ONLY", "004D PLS", "0051 DCONREF", "0055 DEFCOLWIDTH", "0056 BUILTINFMTCOUNT_B3-4", "0059 XCT", "005A CRN",
   "005B FILESHARING", "005C WRITEACCESS", "005D OBJECT", "005E UNCALCED", "005F SAVERECALC", "0063 OBJECTPROTECT", "007D COLINFO",
   "007E RK2_mythical_?", "0080 GUTS", "0081 WSBOOL", "0082 GRIDSET", "0083 HCENTER", "0084 VCENTER", "0085 BOUNDSHEET", "0086 WRITEPROT",
   "008C COUNTRY", "008D HIDEOBJ", "008E SHEETSOFFSET", "008F SHEETHDR", "0090 SORT", "0092 PALETTE", "0099 STANDARDWIDTH", "009B FILTERMODE",
   "009C FNGROUPCOUNT", "009D AUTOFILTERINFO", "009E AUTOFILTER", "00A0 SCL", "00A1 SETUP", "00AB GCW", "00BD MULRK", "00BE MULBLANK", "00C1 MMS",
   "00D6 RSTRING", "00D7 DBCELL", "00DA BOOKBOOL", "00DD SCENPROTECT", "00E0 XF", "00E1 INTERFACEHDR", "00E2 INTERFACEEND", "00E5 MERGEDCELLS",
   "00E9 BITMAP", "00EB MSO_DRAWING_GROUP", "00EC MSO_DRAWING", "00ED MSO_DRAWING_SELECTION", "00EF PHONETIC", "00FC SST", "00FD LABELSST",
   "00FF EXTSST", "013D TABID", "015F LABELRANGES", "0160 USESELFS", "0161 DSF", "01AE SUPBOOK", "01AF PROTECTIONREV4", "01B0 CONDFMT", "01B1 CF",
   "01B2 DVAL", "01B6 TXO", "01B7 REFRESHALL", "01B8 HLINK", "01BC PASSWORDREV4", "01BE DV", "01C0 XL9FILE", "01C1 RECALCID", "0200 DIMENSIONS",
   "0201 BLANK", "0203 NUMBER", "0204 LABEL", "0205 BOOLERR", "0206 FORMULA_B3", "0207 STRING", "0208 ROW", "0209 BOF", "020B INDEX_B3+",
   "0218 NAME", "0221 ARRAY", "0223 EXTERNNAME_B3-4", "0225 DEFAULTROWHEIGHT", "0231 FONT_B3B4", "0236 TABLEOP", "023E WINDOW2", "0243 XF_B3",
   "027E RK", "0293 STYLE", "0406 FORMULA_B4", "0409 BOF", "041E FORMAT", "0443 XF_B4", "04BC SHRFMLA", "0800 QUICKTIP", "0809 BOF",
   "0862 SHEETLAYOUT", "0867 SHEETPROTECTION", "0868 RANGEPROTECTION"]

/-- The value of a number in hexadecimal with capital letters. -/
def capitalHex (s : List Char) : Nat := s.foldl (fun n c => 16 * n + "0123456789ABCDEF".toList.idxOf c) 0

/-- The code and the name on a line. -/
def recordOf (line : String) : Nat × List Char := (capitalHex (line.toList.take 4), line.toList.drop 5)

/-- The name of the records with a code, if it has one. -/
def recordNamed (code : Nat) : Option (List Char) := (recordLines.map recordOf).lookup code

end Xlrd.Spec
