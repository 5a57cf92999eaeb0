import Mathlib.Data.Int.Notation

/-!
# Tables of the occultations

Independent of the model: the first, third and fourth column of tables/RSSActivities_all_rings_only.txt (lines 2-85), and
tables/list_of_sroc_dir_all_events.txt (lines 2-66).
-/
namespace Verif.PyHist.Spec

/-- An event: name, year, day of the year. -/
structure Event where
  name : String
  year : Int
  doy : Int
  deriving DecidableEq

/-- tables/RSSActivities_all_rings_only.txt 2-85. -/
def activities : List Event :=
  [
    ⟨"RSS_007RI_OCC003_PRIME", 2005, 123⟩, ⟨"RSS_007RI_OCC004_PRIME", 2005, 123⟩, ⟨"RSS_008RI_OCC003_PRIME", 2005, 141⟩,
    ⟨"RSS_008RI_OCC004_PRIME", 2005, 141⟩, ⟨"RSS_009RI_OCC004_PRIME", 2005, 159⟩, ⟨"RSS_010RI_OCC003_PRIME", 2005, 177⟩,
    ⟨"RSS_010RI_OCC004_PRIME", 2005, 177⟩, ⟨"RSS_011RI_OCC004_PRIME", 2005, 196⟩, ⟨"RSS_012RI_OCC003_PRIME", 2005, 214⟩,
    ⟨"RSS_012RI_OCC004_PRIME", 2005, 214⟩, ⟨"RSS_013RI_OCC004_PRIME", 2005, 232⟩, ⟨"RSS_014RI_OCC002_PRIME", 2005, 248⟩,
    ⟨"RSS_028RI_OCC001_PRIME", 2006, 258⟩, ⟨"RSS_028RI_OCC002_PRIME", 2006, 259⟩, ⟨"RSS_044RI_OCC002_PRIME", 2007, 130⟩,
    ⟨"RSS_046RI_OCC002_PRIME", 2007, 162⟩, ⟨"RSS_053RI_OCC002_PRIME", 2007, 337⟩, ⟨"RSS_054RI_OCC002_PRIME", 2007, 353⟩,
    ⟨"RSS_056RI_OCC002_PRIME", 2008, 15⟩, ⟨"RSS_057RI_OCC002_PRIME", 2008, 27⟩, ⟨"RSS_058RI_OCC002_PRIME", 2008, 39⟩,
    ⟨"RSS_060RI_OCC002_PRIME", 2008, 62⟩, ⟨"RSS_063RI_OCC002_PRIME", 2008, 92⟩, ⟨"RSS_064RI_OCC002_PRIME", 2008, 102⟩,
    ⟨"RSS_067RI_OCC002_PRIME", 2008, 130⟩, ⟨"RSS_079RI_OCC002_PRIME", 2008, 217⟩, ⟨"RSS_081RI_OCC002_PRIME", 2008, 232⟩,
    ⟨"RSS_082RI_OCC002_PRIME", 2008, 239⟩, ⟨"RSS_084RI_OCC002_PRIME", 2008, 254⟩, ⟨"RSS_089RI_OCC001_PRIME", 2008, 291⟩,
    ⟨"RSS_123RI_OCC002_PRIME", 2009, 359⟩, ⟨"RSS_123RI_OCC003_PRIME", 2009, 360⟩, ⟨"RSS_125RI_OCC002_PRIME", 2010, 26⟩,
    ⟨"RSS_125RI_OCC003_PRIME", 2010, 27⟩, ⟨"RSS_133RI_OCC002_PRIME", 2010, 169⟩, ⟨"RSS_133RI_OCC003_PRIME", 2010, 170⟩,
    ⟨"RSS_137RI_OCC001_PRIME", 2010, 245⟩, ⟨"RSS_137RI_OCC002_PRIME", 2010, 245⟩, ⟨"RSS_167RI_OCC001_PIE", 2012, 156⟩,
    ⟨"RSS_168RI_OCC001_PRIME", 2012, 180⟩, ⟨"RSS_169RI_OCC001_PIE", 2012, 204⟩, ⟨"RSS_170RI_OCC001_PIE", 2012, 225⟩,
    ⟨"RSS_174RI_OCC001_PIE", 2012, 315⟩, ⟨"RSS_179RI_OCC001_PRIME", 2013, 18⟩, ⟨"RSS_180RI_OCC001_PRIME", 2013, 31⟩,
    ⟨"RSS_189RI_OCC001_PRIME", 2013, 130⟩, ⟨"RSS_190RI_OCC001_PIE", 2013, 140⟩, ⟨"RSS_191RI_OCC001_PIE", 2013, 151⟩,
    ⟨"RSS_193RI_OCC001_PIE", 2013, 175⟩, ⟨"RSS_194RI_OCC001_PRIME", 2013, 187⟩, ⟨"RSS_196RI_OCC001_PIE", 2013, 220⟩,
    ⟨"RSS_197RI_OCC001_RSS", 2013, 244⟩, ⟨"RSS_236RI_OCC001_PIE", 2016, 158⟩, ⟨"RSS_237RI_OCC001_PIE", 2016, 182⟩,
    ⟨"RSS_237RI_OCC002_PIE", 2016, 182⟩, ⟨"RSS_238RI_OCC001_PIE", 2016, 206⟩, ⟨"RSS_247RI_OCC001_PRIME", 2016, 307⟩,
    ⟨"RSS_248RI_OCC001_PRIME", 2016, 317⟩, ⟨"RSS_250RI_OCC001_PIE", 2016, 333⟩, ⟨"RSS_251RI_OCC001_PIE", 2016, 340⟩,
    ⟨"RSS_253RI_OCC002_PRIME", 2016, 354⟩, ⟨"RSS_255RI_OCC001_PIE", 2017, 3⟩, ⟨"RSS_256RI_OCC001_PIE", 2017, 10⟩,
    ⟨"RSS_257RI_OCC001_PRIME", 2017, 17⟩, ⟨"RSS_266RI_OCC001_PRIME", 2017, 81⟩, ⟨"RSS_268RI_OCC001_PIE", 2017, 96⟩,
    ⟨"RSS_270RI_OCC001_PRIME", 2017, 110⟩, ⟨"RSS_273RI_PERIOCC001_PRIME", 2017, 129⟩,
    ⟨"RSS_273RI_INGOCC001_PRIME", 2017, 129⟩, ⟨"RSS_273RI_EGROCC001_PRIME", 2017, 129⟩,
    ⟨"RSS_PERIOCC001_PRIME", 2017, 135⟩, ⟨"RSS_274_RI_INGOCC001_PRIME", 2017, 135⟩,
    ⟨"RSS_274_RI_EGROCC001_PRIME", 2017, 136⟩, ⟨"RSS_275RI_PERIOCC001_PRIME", 2017, 142⟩,
    ⟨"RSS_275RI_INGOCC001_PRIME", 2017, 142⟩, ⟨"RSS_275RI_EGROCC001_PRIME", 2017, 142⟩,
    ⟨"RSS_276RI_OCC001_PRIME", 2017, 148⟩, ⟨"RSS_278RI_PERIOCC001_PRIME", 2017, 161⟩,
    ⟨"RSS_278RI_CRDOCC001_PRIME", 2017, 161⟩, ⟨"RSS_280RI_PERIOCC001_PRIME", 2017, 174⟩,
    ⟨"RSS_280RI_CRDOCC001_PRIME", 2017, 174⟩, ⟨"RSS_282RI_OCC001_PRIME", 2017, 187⟩,
    ⟨"RSS_284RI_PERIOCC001_PRIME", 2017, 200⟩, ⟨"RSS_284RI_CRDOCC001_PRIME", 2017, 200⟩]

/-- tables/list_of_sroc_dir_all_events.txt 2-66. -/
def directions : List (String × String) :=
  [
    ("007", "BOTH"), ("008", "BOTH"), ("009", "EGRESS"), ("010", "BOTH"), ("011", "EGRESS"), ("012", "BOTH"),
    ("013", "EGRESS"), ("014", "INGRESS"), ("028", "INGRESS"), ("044", "EGRESS"), ("046", "INGRESS"), ("053", "BOTH"),
    ("054", "BOTH"), ("056", "BOTH"), ("057", "BOTH"), ("058", "BOTH"), ("060", "BOTH"), ("063", "BOTH"),
    ("064", "BOTH"), ("067", "BOTH"), ("079", "BOTH"), ("081", "BOTH"), ("082", "BOTH"), ("084", "BOTH"),
    ("089", "BOTH"), ("123", "BOTH"), ("125", "BOTH"), ("133", "BOTH"), ("137", "BOTH"), ("167", "BOTH"),
    ("168", "INGRESS"), ("169", "INGRESS"), ("170", "BOTH"), ("174", "INGRESS"), ("179", "INGRESS"), ("180", "BOTH"),
    ("189", "BOTH"), ("190", "BOTH"), ("191", "BOTH"), ("193", "BOTH"), ("194", "BOTH"), ("196", "BOTH"),
    ("197", "BOTH"), ("236", "BOTH"), ("237", "BOTH"), ("238", "EGRESS"), ("247", "BOTH"), ("248", "BOTH"),
    ("250", "BOTH"), ("251", "BOTH"), ("253", "BOTH"), ("255", "EGRESS"), ("256", "EGRESS"), ("257", "EGRESS"),
    ("266", "INGRESS"), ("268", "INGRESS"), ("270", "INGRESS"), ("273", "BOTH"), ("274", "BOTH"), ("275", "BOTH"),
    ("276", "BOTH"), ("278", "BOTH"), ("280", "BOTH"), ("282", "BOTH"), ("284", "BOTH")]

end Verif.PyHist.Spec
