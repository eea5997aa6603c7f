import Verif.Wfst.Processor

/-
Data tables of /repo/tn/english/data, written by tools/mkdata.py from the .tsv files.
-/

namespace Verif.EnTn

open Verif.Wfst

/-- `whitelist/tts.tsv`, part 0. -/
def tts0 : List (Str × Str) :=
  [(t!"Ph.D.", t!"PHD"), (t!"Mt.", t!"Mount"), (t!"Maj.", t!"Major"), (t!"Rev.", t!"Reverend"),
   (t!"Gov.", t!"governor"), (t!"Bldg.", t!"Building"), (t!"Apt.", t!"Apartment"),
   (t!"World War II.", t!"World War two"), (t!"World War II", t!"World War two"),
   (t!"World War I.", t!"World War one"), (t!"World War I", t!"World War one"),
   (t!"SnO2", t!"tin four oxide"), (t!"HVAC", t!"H-vac"), (t!"SPDR", t!"spider"),
   (t!"ZIP", t!"zip"), (t!"~", t!"approximately"), (t!"χ", t!"chi"), (t!"Χ", t!"chi"),
   (t!"ε", t!"epsilon"), (t!"Ε", t!"epsilon"), (t!"φ", t!"phi"), (t!"Φ", t!"phi"),
   (t!"γ", t!"gamma"), (t!"Γ", t!"gamma"), (t!"η", t!"eta"), (t!"Η", t!"eta"),
   (t!"ι", t!"iota"), (t!"Ι", t!"iota"), (t!"κ", t!"kappa"), (t!"Κ", t!"kappa"),
   (t!"λ", t!"lambda"), (t!"Λ", t!"lambda"), (t!"μ", t!"mu"), (t!"Μ", t!"mu"), (t!"ν", t!"nu"),
   (t!"Ν", t!"nu"), (t!"ο", t!"omicron"), (t!"Ο", t!"omicron"), (t!"π", t!"pi"),
   (t!"Π", t!"pi"), (t!"θ", t!"theta"), (t!"Θ", t!"theta"), (t!"ρ", t!"rho"), (t!"Ρ", t!"rho"),
   (t!"σ", t!"sigma"), (t!"Σ", t!"sigma"), (t!"τ", t!"tau"), (t!"Τ", t!"tau"),
   (t!"υ", t!"upsilon"), (t!"Υ", t!"upsilon"), (t!"ω", t!"omega"), (t!"Ω", t!"omega"),
   (t!"ξ", t!"xi"), (t!"Ξ", t!"xi"), (t!"ψ", t!"psi"), (t!"Ψ", t!"psi"), (t!"ζ", t!"zeta"),
   (t!"Ζ", t!"zeta"), (t!"A. D", t!"AD"), (t!"A.D", t!"AD"), (t!"B. C", t!"BC"),
   (t!"B.C", t!"BC"), (t!"A. D.", t!"AD"), (t!"A.D.", t!"AD")]

/-- `whitelist/tts.tsv`, part 1. -/
def tts1 : List (Str × Str) :=
  [(t!"B. C.", t!"BC"), (t!"B.C.", t!"BC"), (t!"A. A.", t!"a a"), (t!"A.A.", t!"AA"),
   (t!"A&A", t!"A and A"), (t!"AAAs", t!"AAA's"), (t!"AaB", t!"AAB"), (t!"Aabo", t!"AABO"),
   (t!"AACNo", t!"AACNO"), (t!"AADTs", t!"AADT's"), (t!"Aadu", t!"AADU"),
   (t!"AAFld", t!"AAFLD"), (t!"Aap", t!"AAP"), (t!"A. B.", t!"AB"), (t!"A.B.", t!"AB"),
   (t!"Abhi", t!"ABHI"), (t!"Abl", t!"ABL"), (t!"Abp", t!"ABP"), (t!"Abr", t!"ABR"),
   (t!"Abz", t!"ABZ"), (t!"A&C", t!"A and C"), (t!"A. C.", t!"AC"), (t!"A.C.", t!"AC"),
   (t!"A/C", t!"AC"), (t!"Acad", t!"ACAD"), (t!"ACC&S", t!"ACC and S"), (t!"Achs", t!"ACH's"),
   (t!"Acis", t!"ACI's"), (t!"ACMs", t!"ACM's"), (t!"AcpA", t!"ACPA"), (t!"AcpB", t!"ACPB"),
   (t!"A&CR", t!"A and CR"), (t!"AcSOC", t!"ACSOC"), (t!"AC&W", t!"AC and W"),
   (t!"Acy", t!"ACY"), (t!"A&D", t!"A and D"), (t!"Adab", t!"ADAB"), (t!"A. D.", t!"AD"),
   (t!"A.D.", t!"AD"), (t!"A.D.A.M.", t!"adam"), (t!"AdaSL", t!"ADASL"), (t!"AdC", t!"ADC"),
   (t!"ADCs", t!"ADC's"), (t!"AD&D", t!"AD and D"), (t!"AdK", t!"ADK"), (t!"Adl", t!"ADL"),
   (t!"ADLs", t!"ADL's"), (t!"Adm", t!"ADM"), (t!"ADNs", t!"ADN's"), (t!"AdP", t!"ADP"),
   (t!"ADRs", t!"ADR's"), (t!"ADSRs", t!"ADSR's"), (t!"ADSs", t!"ADS's"), (t!"Adwa", t!"ADWA"),
   (t!"A&E", t!"A and E"), (t!"A. E.", t!"AE"), (t!"A.E.", t!"AE"), (t!"Aed", t!"AED"),
   (t!"Aeka", t!"AEKA"), (t!"Aema", t!"AEMA"), (t!"AEre", t!"AERE"), (t!"AErn", t!"AERN"),
   (t!"Aert", t!"AERT"), (t!"Aes", t!"AE's")]

/-- `whitelist/tts.tsv`, part 2. -/
def tts2 : List (Str × Str) :=
  [(t!"Afa", t!"AFA"), (t!"Af", t!"AF"), (t!"A. F.", t!"AF"), (t!"A.F.", t!"AF"),
   (t!"Afaf", t!"AFAF"), (t!"AFCSThe", t!"AFCSTHE"), (t!"Afd", t!"AFD"), (t!"AfD", t!"AFD"),
   (t!"AfDB", t!"AFDB"), (t!"Afe", t!"AFE"), (t!"Aff", t!"AFF"), (t!"Afi", t!"AFI"),
   (t!"Afiq", t!"AFIQ"), (t!"AFMs", t!"AFM's"), (t!"AfNS", t!"AFNS"), (t!"Afo", t!"AFO"),
   (t!"Afr", t!"AFR"), (t!"A. G.", t!"AG"), (t!"A.G.", t!"AG"), (t!"Agco", t!"AGCO"),
   (t!"Agda", t!"AGDA"), (t!"AG&G", t!"AG and G"), (t!"Agi", t!"AGI"), (t!"Agis", t!"AGI's"),
   (t!"Agn", t!"AGN"), (t!"AgN", t!"AGN"), (t!"AGNs", t!"AGN's"), (t!"AGRs", t!"AGR's"),
   (t!"Agsu", t!"AGSU"), (t!"Agte", t!"AGTE"), (t!"Agu", t!"AGU"), (t!"A. H.", t!"AH"),
   (t!"A.H.", t!"AH"), (t!"Ahdhra", t!"AHDHRA"), (t!"Ahe", t!"AHE"), (t!"Ahirs", t!"AHIR's"),
   (t!"Ahk", t!"AHK"), (t!"Ahsa'i", t!"AHSAI"), (t!"Ahta", t!"AHTA"), (t!"Ahu", t!"AHU"),
   (t!"Ahva", t!"AHVA"), (t!"A&I", t!"A and I"), (t!"A. I.", t!"AI"), (t!"A.I.", t!"AI"),
   (t!"Aias", t!"AIA's"), (t!"Aicme", t!"AICME"), (t!"AICs", t!"AIC's"), (t!"Aiel", t!"AIEL"),
   (t!"Aife", t!"AIFE"), (t!"AiG", t!"AIG"), (t!"Aigis", t!"AIGI's"), (t!"Aija", t!"AIJA"),
   (t!"Aik", t!"AIK"), (t!"AIs", t!"AI's"), (t!"Aist", t!"AIST"), (t!"Aitu", t!"AITU"),
   (t!"Aiud", t!"AIUD"), (t!"A. J.", t!"AJ"), (t!"A.J.", t!"AJ"), (t!"Ajba", t!"AJBA"),
   (t!"Ajmi", t!"AJMI"), (t!"Ajok", t!"AJOK"), (t!"Ajsa", t!"AJSA"), (t!"Aju", t!"AJU")]

/-- `whitelist/tts.tsv`, part 3. -/
def tts3 : List (Str × Str) :=
  [(t!"Akaa", t!"AKAA"), (t!"Aka.", t!"AKA"), (t!"Aka", t!"AKA"), (t!"A&K", t!"A and K"),
   (t!"A. K.", t!"AK"), (t!"A.K.", t!"AK"), (t!"AKAPs", t!"AKAP's"), (t!"AKAs", t!"AKA's"),
   (t!"Akpa", t!"AKPA"), (t!"Aku", t!"AKU"), (t!"A&L", t!"A and L"), (t!"A. L.", t!"AL"),
   (t!"A.L.", t!"AL"), (t!"Alh", t!"ALH"), (t!"ALUs", t!"ALU's"), (t!"A'ma", t!"AMA"),
   (t!"A&M", t!"A and M"), (t!"A. M.", t!"AM"), (t!"A.M.", t!"AM"), (t!"AMAs", t!"AMA's"),
   (t!"Amb", t!"AMB"), (t!"AmBX", t!"AMBX"), (t!"AMCs", t!"AMC's"), (t!"Amda", t!"AMDA"),
   (t!"Amd", t!"AMD"), (t!"AM&FM", t!"AM and FM"), (t!"Amha", t!"AMHA"), (t!"Amli", t!"AMLI"),
   (t!"Amlwch", t!"AMLWCH"), (t!"Amm", t!"AMM"), (t!"AM&O", t!"AM and O"),
   (t!"Ampt", t!"AMPT"), (t!"A&M's", t!"A and M's"), (t!"Ams'", t!"AM's"),
   (t!"Amta", t!"AMTA"), (t!"Amt", t!"AMT"), (t!"Amts", t!"AMT's"), (t!"Amu", t!"AMU"),
   (t!"A. N.", t!"AN"), (t!"A.N.", t!"AN"), (t!"andFHL", t!"ANDFHL"), (t!"andPPP", t!"ANDPPP"),
   (t!"Anej", t!"ANEJ"), (t!"Angti", t!"ANGTI"), (t!"Angu", t!"ANGU"), (t!"Anhe", t!"ANHE"),
   (t!"Anr", t!"ANR"), (t!"Anrep", t!"ANREP"), (t!"A&O", t!"A and O"), (t!"A. O.", t!"AO"),
   (t!"A.O.", t!"AO"), (t!"AOCCs", t!"AOCC's"), (t!"Aodh", t!"AODH"), (t!"Aodla", t!"AODLA"),
   (t!"Aogo", t!"AOGO"), (t!"Aoke", t!"AOKE"), (t!"Aoko", t!"AOKO"), (t!"Aola", t!"AOLA"),
   (t!"Aol", t!"AOL"), (t!"Aone", t!"AONE"), (t!"Aoni", t!"AONI"), (t!"Aoos", t!"AOO's"),
   (t!"AORs", t!"AOR's"), (t!"AoS", t!"AOS")]

/-- `whitelist/tts.tsv`, part 4. -/
def tts4 : List (Str × Str) :=
  [(t!"Aotus", t!"AOTU's"), (t!"A&P", t!"A and P"), (t!"A. P.", t!"AP"), (t!"A.P.", t!"AP"),
   (t!"Apc", t!"APC"), (t!"APCh", t!"APCH"), (t!"APCs", t!"APC's"), (t!"Aph", t!"APH"),
   (t!"Apiao", t!"APIAO"), (t!"Api", t!"API"), (t!"APi", t!"API"), (t!"Apic", t!"APIC"),
   (t!"APICv", t!"APICV"), (t!"Apl", t!"APL"), (t!"Aplu", t!"APLU"),
   (t!"Apphttp", t!"APPHTTP"), (t!"Appl", t!"APPL"), (t!"Appts", t!"APPT's"),
   (t!"Appu", t!"APPU"), (t!"A&P's", t!"A and P's"), (t!"Aps", t!"AP's"), (t!"APs", t!"AP's"),
   (t!"AP&T", t!"AP and T"), (t!"Aqa", t!"AQA"), (t!"Aql", t!"AQL"), (t!"Aqr", t!"AQR"),
   (t!"A&R", t!"A and R"), (t!"A. R.", t!"AR"), (t!"A.R.", t!"AR"), (t!"ArgR", t!"ARGR"),
   (t!"ARGs", t!"ARG's"), (t!"ArH", t!"ARH"), (t!"ARMv", t!"ARMV"), (t!"Arnd", t!"ARND"),
   (t!"Arv", t!"ARV"), (t!"Arwi", t!"ARWI"), (t!"As'ad", t!"ASAD"), (t!"Asai", t!"ASAI"),
   (t!"Asao", t!"ASAO"), (t!"A.s", t!"A's"), (t!"A. S.", t!"AS"), (t!"A.S.", t!"AS"),
   (t!"Asasp", t!"ASASP"), (t!"Asci", t!"ASCI"), (t!"Asdis", t!"ASDI's"), (t!"Asfi", t!"ASFI"),
   (t!"Asn", t!"ASN"), (t!"Aso", t!"ASO"), (t!"Aspe", t!"ASPE"), (t!"Asr", t!"ASR"),
   (t!"Assn", t!"ASSN"), (t!"Assoc", t!"ASSOC"), (t!"ASSPs", t!"ASSP's"), (t!"Asst", t!"ASST"),
   (t!"Aste", t!"ASTE"), (t!"Astt", t!"ASTT"), (t!"Aswa", t!"ASWA"), (t!"A&T", t!"A and T"),
   (t!"Atac", t!"ATAC"), (t!"Atad", t!"ATAD"), (t!"Ata's", t!"ATA's"), (t!"Atas", t!"ATA's"),
   (t!"A. T.", t!"AT"), (t!"A.T.", t!"AT")]

/-- `whitelist/tts.tsv`, part 5. -/
def tts5 : List (Str × Str) :=
  [(t!"ATBs", t!"ATB's"), (t!"Atg", t!"ATG"), (t!"Ath", t!"ATH"), (t!"Atia's", t!"ATIA's"),
   (t!"Ati", t!"ATI"), (t!"ATi", t!"ATI"), (t!"Atid", t!"ATID"), (t!"Atiiq", t!"ATIIQ"),
   (t!"Atil", t!"ATIL"), (t!"Atiq", t!"ATIQ"), (t!"Ativ", t!"ATIV"), (t!"Atka", t!"ATKA"),
   (t!"Atl", t!"ATL"), (t!"Atli", t!"ATLI"), (t!"Atm", t!"ATM"), (t!"ATMs", t!"ATM's"),
   (t!"Atos", t!"ATO's"), (t!"ATOs", t!"ATO's"), (t!"atpB", t!"ATPB"), (t!"Atri", t!"ATRI"),
   (t!"A&T's", t!"A and T's"), (t!"A.T.s", t!"AT's"), (t!"AT&SF", t!"AT and SF"),
   (t!"AT&T", t!"AT and T"), (t!"AT&T's", t!"AT and T's"), (t!"ATVs", t!"ATV's"),
   (t!"AtxA", t!"ATXA"), (t!"A. U.", t!"AU"), (t!"A.U.", t!"AU"), (t!"Aub", t!"AUB"),
   (t!"Aubl", t!"AUBL"), (t!"AUVs", t!"AUV's"), (t!"Auw", t!"AUW"), (t!"A. V.", t!"AV"),
   (t!"A.V.", t!"AV"), (t!"AVCs", t!"AVC's"), (t!"Avn", t!"AVN"), (t!"Avo", t!"AVO"),
   (t!"AvP", t!"AVP"), (t!"AVRs", t!"AVR's"), (t!"Avs'", t!"AV's"), (t!"Avs", t!"AV's"),
   (t!"Awa", t!"AWA"), (t!"AWAs", t!"AWA's"), (t!"A. W.", t!"AW"), (t!"A.W.", t!"AW"),
   (t!"Awo", t!"AWO"), (t!"Awwa", t!"AWWA"), (t!"A. X.", t!"AX"), (t!"A. Y.", t!"AY"),
   (t!"A.Y.", t!"AY"), (t!"A. Z.", t!"AZ"), (t!"A.Z.", t!"AZ"), (t!"Azg", t!"AZG"),
   (t!"Azi", t!"AZI"), (t!"AzTV", t!"AZTV"), (t!"Baad", t!"BAAD"), (t!"Ba'al", t!"BAAL"),
   (t!"Baal", t!"BAAL"), (t!"Baam", t!"BAAM"), (t!"Baap", t!"BAAP"), (t!"Baat", t!"BAAT"),
   (t!"Ba'ath", t!"BAATH"), (t!"B. A.", t!"BA")]

/-- `whitelist/tts.tsv`, part 6. -/
def tts6 : List (Str × Str) :=
  [(t!"B.A.", t!"BA"), (t!"B&A", t!"B and A"), (t!"Bac", t!"BAC"), (t!"Bae", t!"BAE"),
   (t!"BAe", t!"BAE"), (t!"Bauw", t!"BAUW"), (t!"B'Av", t!"BAV"), (t!"B&B", t!"B and B"),
   (t!"B. B.", t!"BB"), (t!"B.B.", t!"BB"), (t!"BB&CI", t!"BB and CI"),
   (t!"BBC&PJR", t!"BBC and PJR"), (t!"BBQ'er", t!"BBQER"), (t!"B&Bs", t!"B and B's"),
   (t!"BB&S", t!"BB and S"), (t!"BBSes", t!"BBSE's"), (t!"BB&T", t!"BB and T"),
   (t!"BbvCI", t!"BBVCI"), (t!"B. C.", t!"BC"), (t!"B.C.", t!"BC"), (t!"Bcci", t!"BCCI"),
   (t!"B.C.'s", t!"BC's"), (t!"BCs", t!"BC's"), (t!"BCSic", t!"BCSIC"), (t!"BdA", t!"BDA"),
   (t!"B. D.", t!"BD"), (t!"B.D.", t!"BD"), (t!"Bde", t!"BDE"), (t!"BdU", t!"BDU"),
   (t!"B. E.", t!"BE"), (t!"B.E.", t!"BE"), (t!"Bedw", t!"BEDW"), (t!"Bei", t!"BEI"),
   (t!"Beih", t!"BEIH"), (t!"Beis", t!"BEI's"), (t!"BEMs", t!"BEM's"), (t!"Ber", t!"BER"),
   (t!"Bes", t!"BE's"), (t!"B. F.", t!"BF"), (t!"B.F.", t!"BF"), (t!"BFFs", t!"BFF's"),
   (t!"B. G.", t!"BG"), (t!"B.G.", t!"BG"), (t!"BglII", t!"BGLII"), (t!"Bgy", t!"BGY"),
   (t!"Bha", t!"BHA"), (t!"B&H", t!"B and H"), (t!"B. H.", t!"BH"), (t!"B.H.", t!"BH"),
   (t!"BH&E", t!"BH and E"), (t!"Bhe", t!"BHE"), (t!"BHMs", t!"BHM's"), (t!"B. I.", t!"BI"),
   (t!"B.I.", t!"BI"), (t!"Bie", t!"BIE"), (t!"Biem", t!"BIEM"), (t!"B.I.G.'s", t!"BIG's"),
   (t!"BiH", t!"BIH"), (t!"B. J.", t!"BJ"), (t!"B.J.", t!"BJ"), (t!"BJPs", t!"BJP's"),
   (t!"B.J.'s", t!"BJ's"), (t!"B&K", t!"B and K"), (t!"B. K.", t!"BK")]

/-- `whitelist/tts.tsv`, part 7. -/
def tts7 : List (Str × Str) :=
  [(t!"B.K.", t!"BK"), (t!"BKCa", t!"BKCA"), (t!"B. L.", t!"BL"), (t!"B.L.", t!"BL"),
   (t!"Blla", t!"BLLA"), (t!"BLR&D", t!"BLR and D"), (t!"BLTs", t!"BLT's"),
   (t!"B&M", t!"B and M"), (t!"B. M.", t!"BM"), (t!"B.M.", t!"BM"), (t!"BMPs", t!"BMP's"),
   (t!"BMRs", t!"BMR's"), (t!"B&N", t!"B and N"), (t!"B. N.", t!"BN"), (t!"B.N.", t!"BN"),
   (t!"Boac", t!"BOAC"), (t!"B&O", t!"B and O"), (t!"B. O.", t!"BO"), (t!"B.O.", t!"BO"),
   (t!"Boc", t!"BOC"), (t!"BoC", t!"BOC"), (t!"BOCs", t!"BOC's"), (t!"Boj", t!"BOJ"),
   (t!"B&O's", t!"B and O's"), (t!"B. P.", t!"BP"), (t!"B.P.", t!"BP"), (t!"B&Q", t!"B and Q"),
   (t!"B. Q.", t!"BQ"), (t!"Brbic", t!"BRBIC"), (t!"B. R.", t!"BR"), (t!"B.R.", t!"BR"),
   (t!"BRBs", t!"BRB's"), (t!"Brne", t!"BRNE"), (t!"Brno", t!"BRNO"), (t!"BRTs", t!"BRT's"),
   (t!"Brza", t!"BRZA"), (t!"Brzyk", t!"BRZYK"), (t!"BsaL", t!"BSAL"), (t!"B. s", t!"B's"),
   (t!"B.'s", t!"B's"), (t!"Bs", t!"B's"), (t!"B. S.", t!"BS"), (t!"B.S.", t!"BS"),
   (t!"B. T.", t!"BT"), (t!"B.T.", t!"BT"), (t!"Btry", t!"BTRY"), (t!"BTUs", t!"BTU's"),
   (t!"B.U.", t!"BU"), (t!"B. V.", t!"BV"), (t!"B.V.", t!"BV"), (t!"Bwa", t!"BWA"),
   (t!"B&W", t!"B and W"), (t!"B. W.", t!"BW"), (t!"B.W.", t!"BW"), (t!"BWTs", t!"BWT's"),
   (t!"Bxa", t!"BXA"), (t!"Bxe", t!"BXE"), (t!"B. Y.", t!"BY"), (t!"Byk", t!"BYK"),
   (t!"Byo", t!"BYO"), (t!"Byou", t!"BYOU"), (t!"Byrl", t!"BYRL"), (t!"bySLC", t!"BYSLC"),
   (t!"B.Z.", t!"BZ")]

/-- `whitelist/tts.tsv`, part 8. -/
def tts8 : List (Str × Str) :=
  [(t!"Bzik", t!"BZIK"), (t!"Bzyb", t!"BZYB"), (t!"Caat", t!"CAAT"), (t!"C. A.", t!"CA"),
   (t!"C.A.", t!"CA"), (t!"C&A", t!"C and A"), (t!"CA&CC", t!"CA and CC"),
   (t!"Cadw", t!"CADW"), (t!"Cae", t!"CAE"), (t!"C.A.M.'s", t!"CAM's"),
   (t!"Capt.", t!"captain"), (t!"Cas", t!"CA's"), (t!"Casc", t!"CASC"), (t!"C. B.", t!"CB"),
   (t!"C.B.", t!"CB"), (t!"CB&CNS", t!"CB and CNS"), (t!"CBDs", t!"CBD's"),
   (t!"CBGBs", t!"CBGB's"), (t!"CbiXS", t!"CBIXS"), (t!"CB&Q", t!"CB and Q"),
   (t!"CBs", t!"CB's"), (t!"CcaA", t!"CCAA"), (t!"Cca", t!"CCA"), (t!"C&C", t!"C and C"),
   (t!"C. C.", t!"CC"), (t!"C.C.", t!"CC"), (t!"CCDev", t!"CCDEV"), (t!"CCDs", t!"CCD's"),
   (t!"CCEd", t!"CCED"), (t!"CCi", t!"CCI"), (t!"CCRCs", t!"CCRC's"), (t!"C&D", t!"C and D"),
   (t!"C. D.", t!"CD"), (t!"C.D.", t!"CD"), (t!"CD&DR", t!"CD and DR"), (t!"CDi", t!"CDI"),
   (t!"cDNA", t!"CDNA"), (t!"cDNAs", t!"CDNA's"), (t!"CDOs", t!"CDO's"), (t!"CDPs", t!"CDP's"),
   (t!"CD&R", t!"CD and R"), (t!"CDs", t!"CD's"), (t!"CDSPCo", t!"CDSPCO"),
   (t!"CdtA", t!"CDTA"), (t!"CdTe", t!"CDTE"), (t!"CDTi", t!"CDTI"), (t!"CD&V", t!"CD and V"),
   (t!"Cec", t!"CEC"), (t!"C'e", t!"CE"), (t!"Ce", t!"CE"), (t!"C. E.", t!"CE"),
   (t!"C.E.", t!"CE"), (t!"Ceel", t!"CEEL"), (t!"Cefn", t!"CEFN"),
   (t!"C&EI's", t!"C and EI's"), (t!"C&EN", t!"C and EN"), (t!"Cen", t!"CEN"),
   (t!"Ceol", t!"CEOL"), (t!"Ceorl", t!"CEORL"), (t!"Ceos", t!"CEO's"), (t!"CEOs'", t!"CEO's"),
   (t!"CEOs", t!"CEO's"), (t!"Cer", t!"CER"), (t!"Ces", t!"CE's")]

/-- `whitelist/tts.tsv`, part 9. -/
def tts9 : List (Str × Str) :=
  [(t!"Cex", t!"CEX"), (t!"CeX", t!"CEX"), (t!"Cfa", t!"CFA"), (t!"C&F", t!"C and F"),
   (t!"C. F.", t!"CF"), (t!"C.F.", t!"CF"), (t!"CFOs", t!"CFO's"), (t!"CFTs", t!"CFT's"),
   (t!"C&G", t!"C and G"), (t!"C. G.", t!"CG"), (t!"C.G.", t!"CG"), (t!"C&H", t!"C and H"),
   (t!"C. H.", t!"CH"), (t!"C.H.", t!"CH"), (t!"Chhu", t!"CHHU"), (t!"Chirs", t!"CHIR's"),
   (t!"CHP'den", t!"CHPDEN"), (t!"CHPs", t!"CHP's"), (t!"Chy", t!"CHY"), (t!"Cia", t!"CIA"),
   (t!"Ci", t!"CI"), (t!"C. I.", t!"CI"), (t!"C.I.", t!"CI"), (t!"Cicic", t!"CICIC"),
   (t!"Cim", t!"CIM"), (t!"Cio", t!"CIO"), (t!"CIOs", t!"CIO's"), (t!"Cip", t!"CIP"),
   (t!"CIs", t!"CI's"), (t!"CiTD", t!"CITD"), (t!"citS", t!"CITS"), (t!"CitX", t!"CITX"),
   (t!"Ciuc", t!"CIUC"), (t!"Ciu", t!"CIU"), (t!"CiU", t!"CIU"), (t!"Cixi", t!"CIXI"),
   (t!"C. J.", t!"CJ"), (t!"C.J.", t!"CJ"), (t!"C. K.", t!"CK"), (t!"C.K.", t!"CK"),
   (t!"CLBs", t!"CLB's"), (t!"C. L.", t!"CL"), (t!"C.L.", t!"CL"), (t!"Cle", t!"CLE"),
   (t!"CL&N", t!"CL and N"), (t!"Clo", t!"CLO"), (t!"CL&P", t!"CL and P"), (t!"CLs", t!"CL's"),
   (t!"CLTs", t!"CLT's"), (t!"Clu", t!"CLU"), (t!"Clwyd", t!"CLWYD"), (t!"C&MA", t!"C and MA"),
   (t!"C. M.", t!"CM"), (t!"C.M.", t!"CM"), (t!"CMCs", t!"CMC's"), (t!"Cmde", t!"CMDE"),
   (t!"CMMs", t!"CMM's"), (t!"Cmte", t!"CMTE"), (t!"C. N.", t!"CN"), (t!"C.N.", t!"CN"),
   (t!"CNMs", t!"CNM's"), (t!"CNs", t!"CN's"), (t!"CNTs", t!"CNT's"), (t!"Cnut's", t!"CNUT's")]

/-- `whitelist/tts.tsv`, part 10. -/
def tts10 : List (Str × Str) :=
  [(t!"CNVs", t!"CNV's"), (t!"C&O", t!"C and O"), (t!"C. O.", t!"CO"), (t!"C.O.", t!"CO"),
   (t!"Co.", t!"company"), (t!"Col.", t!"colonel"), (t!"C&P", t!"C and P"),
   (t!"C. P.", t!"CP"), (t!"C.P.", t!"CP"), (t!"CPCs", t!"CPC's"), (t!"CPUs", t!"CPU's"),
   (t!"CQDs", t!"CQD's"), (t!"C. R.", t!"CR"), (t!"C.R.", t!"CR"), (t!"Cre", t!"CRE"),
   (t!"Crkva", t!"CRKVA"), (t!"CRLs", t!"CRL's"), (t!"Crne", t!"CRNE"), (t!"Crni", t!"CRNI"),
   (t!"Crno", t!"CRNO"), (t!"CRs", t!"CR's"), (t!"Csa", t!"CSA"), (t!"Csak", t!"CSAK"),
   (t!"Csaky", t!"CSAKY"), (t!"C&S", t!"C and S"), (t!"C.s", t!"C's"), (t!"Cs", t!"C's"),
   (t!"C. S.", t!"CS"), (t!"C.S.", t!"CS"), (t!"C&SF", t!"C and SF"), (t!"CsI", t!"CSI"),
   (t!"CSis", t!"CSI's"), (t!"CSIs", t!"CSI's"), (t!"CSOs", t!"CSO's"), (t!"cspA", t!"CSPA"),
   (t!"CSPs", t!"CSP's"), (t!"CSSNCs", t!"CSSNC's"), (t!"Csuz", t!"CSUZ"),
   (t!"CTAs", t!"CTA's"), (t!"C&T", t!"C and T"), (t!"CTLs", t!"CTL's"),
   (t!"Ctrip", t!"CTRIP"), (t!"C. U.", t!"CU"), (t!"Cuyp", t!"CUYP"), (t!"C&V", t!"C and V"),
   (t!"C. V.", t!"CV"), (t!"C.V.", t!"CV"), (t!"CVEs", t!"CVE's"), (t!"CVOs", t!"CVO's"),
   (t!"CVs", t!"CV's"), (t!"CVTs", t!"CVT's"), (t!"C. W.", t!"CW"), (t!"C.W.", t!"CW"),
   (t!"Cwej", t!"CWEJ"), (t!"Cwele", t!"CWELE"), (t!"C.X.", t!"CX"), (t!"C. Y.", t!"CY"),
   (t!"C.Y.", t!"CY"), (t!"Cyn", t!"CYN"), (t!"CyP", t!"CYP"), (t!"Cyrl", t!"CYRL"),
   (t!"Cys", t!"CY's"), (t!"C.Z.", t!"CZ"), (t!"Daai", t!"DAAI")]

/-- `whitelist/tts.tsv`, part 11. -/
def tts11 : List (Str × Str) :=
  [(t!"D. A.", t!"DA"), (t!"D.A.", t!"DA"), (t!"D&AD", t!"D and AD"),
   (t!"D.A.N.C.E.", t!"dance"), (t!"Dav", t!"DAV"), (t!"dBa", t!"DBA"), (t!"D. B.", t!"DB"),
   (t!"D.B.", t!"DB"), (t!"DCCs", t!"DCC's"), (t!"D&C", t!"D and C"), (t!"D. C.", t!"DC"),
   (t!"D.C.", t!"DC"), (t!"DCom", t!"DCOM"), (t!"D.C.'s", t!"DC's"), (t!"DCs", t!"DC's"),
   (t!"DCUs", t!"DCU's"), (t!"D&D", t!"D and D"), (t!"D. D.", t!"DD"), (t!"D.D.", t!"DD"),
   (t!"DDi", t!"DDI"), (t!"Ddoc", t!"DDOC"), (t!"Ddu", t!"DDU"), (t!"Deah", t!"DEAH"),
   (t!"D. E.", t!"DE"), (t!"D.E.", t!"DE"), (t!"Dei", t!"DEI"), (t!"DeI", t!"DEI"),
   (t!"Deijm", t!"DEIJM"), (t!"Deip", t!"DEIP"), (t!"Dez", t!"DEZ"), (t!"Dfa", t!"DFA"),
   (t!"DFCs", t!"DFC's"), (t!"D. F.", t!"DF"), (t!"D.F.", t!"DF"), (t!"DfE", t!"DFE"),
   (t!"DfES", t!"DFES"), (t!"DFPs", t!"DFP's"), (t!"DFs", t!"DF's"), (t!"D&G", t!"D and G"),
   (t!"D. G.", t!"DG"), (t!"D.G.", t!"DG"), (t!"Dha", t!"DHA"), (t!"DHBs", t!"DHB's"),
   (t!"D&H", t!"D and H"), (t!"D. H.", t!"DH"), (t!"D.H.", t!"DH"), (t!"d'HEC", t!"DHEC"),
   (t!"Dheku", t!"DHEKU"), (t!"Dhod", t!"DHOD"), (t!"Dhol", t!"DHOL"), (t!"Dhoo", t!"DHOO"),
   (t!"Dhor", t!"DHOR"), (t!"Dhou", t!"DHOU"), (t!"DHSs", t!"DHS's"), (t!"D.I.", t!"DI"),
   (t!"DiY", t!"DIY"), (t!"Diyn", t!"DIYN"), (t!"DIYs", t!"DIY's"), (t!"Djam", t!"DJAM"),
   (t!"D. J.", t!"DJ"), (t!"D.J.", t!"DJ"), (t!"DJ'ed", t!"DJED"), (t!"Djem", t!"DJEM"),
   (t!"Dji", t!"DJI")]

/-- `whitelist/tts.tsv`, part 12. -/
def tts12 : List (Str × Str) :=
  [(t!"Djo", t!"DJO"), (t!"D'Jok", t!"DJOK"), (t!"D.J.s", t!"DJ's"), (t!"DJs", t!"DJ's"),
   (t!"DjVu", t!"DJVU"), (t!"DjVus", t!"DJVU's"), (t!"D. K.", t!"DK"), (t!"D.K.", t!"DK"),
   (t!"D. L.", t!"DL"), (t!"D.L.", t!"DL"), (t!"DL&LR", t!"DL and LR"), (t!"DLLs", t!"DLL's"),
   (t!"DL&W", t!"DL and W"), (t!"D.M.C.'s", t!"DMC's"), (t!"D&M", t!"D and M"),
   (t!"D. M.", t!"DM"), (t!"D.M.", t!"DM"), (t!"DMed", t!"DMED"), (t!"DM&E", t!"DM and E"),
   (t!"DMs", t!"DM's"), (t!"DMUs", t!"DMU's"), (t!"Dna", t!"DNA"), (t!"DnA", t!"DNA"),
   (t!"DnaJ", t!"DNAJ"), (t!"D. N.", t!"DN"), (t!"D.N.", t!"DN"), (t!"Dnepr", t!"DNEPR"),
   (t!"Dnes", t!"DNE's"), (t!"DNFs", t!"DNF's"), (t!"DNSBLs", t!"DNSBL's"),
   (t!"D.O.A.'s", t!"DOA's"), (t!"Dod", t!"DOD"), (t!"DoD", t!"DOD"), (t!"D. O.", t!"DO"),
   (t!"D.O.", t!"DO"), (t!"D'oh", t!"DOH"), (t!"Dok", t!"DOK"), (t!"Domt", t!"DOMT"),
   (t!"Dop", t!"DOP"), (t!"dotCMS", t!"DOTCMS"), (t!"DotSVN", t!"DOTSVN"),
   (t!"Douw", t!"DOUW"), (t!"d'OZ", t!"DOZ"), (t!"Dozhd", t!"DOZHD"), (t!"D. P.", t!"DP"),
   (t!"D.P.", t!"DP"), (t!"DProf", t!"DPROF"), (t!"DPs", t!"DP's"), (t!"D.Q.", t!"DQ"),
   (t!"Dr.", t!"doctor"), (t!"D. R.", t!"DR"), (t!"D.R.", t!"DR"), (t!"Dri", t!"DRI"),
   (t!"DRIs", t!"DRI's"), (t!"Driu", t!"DRIU"), (t!"Driv", t!"DRIV"), (t!"Drnis", t!"DRNI's"),
   (t!"Dro", t!"DRO"), (t!"Drs.", t!"doctors"), (t!"Drska", t!"DRSKA"), (t!"DsbA", t!"DSBA"),
   (t!"DS&BB", t!"DS and BB"), (t!"dsDNA", t!"DSDNA"), (t!"Ds", t!"D's")]

/-- `whitelist/tts.tsv`, part 13. -/
def tts13 : List (Str × Str) :=
  [(t!"D. S.", t!"DS"), (t!"D.S.", t!"DS"), (t!"DSGi", t!"DSGI"), (t!"DSi", t!"DSI"),
   (t!"DSMs", t!"DSM's"), (t!"D&SNGRR", t!"D and SNGRR"), (t!"DTCs", t!"DTC's"),
   (t!"DTDs", t!"DTD's"), (t!"D. T.", t!"DT"), (t!"D.T.", t!"DT"), (t!"DT&E", t!"DT and E"),
   (t!"DT&I", t!"DT and I"), (t!"DTs", t!"DT's"), (t!"D.U.", t!"DU"), (t!"Dva", t!"DVA"),
   (t!"DVCs", t!"DVC's"), (t!"DVDs", t!"DVD's"), (t!"D. V.", t!"DV"), (t!"D.V.", t!"DV"),
   (t!"Dvin", t!"DVIN"), (t!"Dvir", t!"DVIR"), (t!"Dwa", t!"DWA"), (t!"D&W", t!"D and W"),
   (t!"D. W.", t!"DW"), (t!"D.W.", t!"DW"), (t!"Dwedw", t!"DWEDW"), (t!"Dwi", t!"DWI"),
   (t!"D.X.", t!"DX"), (t!"DXers", t!"DXER's"), (t!"Dydd", t!"DYDD"), (t!"Dy", t!"DY"),
   (t!"D. Y.", t!"DY"), (t!"Dzog", t!"DZOG"), (t!"Dzor", t!"DZOR"), (t!"Dzus", t!"DZU's"),
   (t!"E. A.", t!"EA"), (t!"E.A.", t!"EA"), (t!"EAMs", t!"EAM's"), (t!"Eas", t!"EA's"),
   (t!"Eav", t!"EAV"), (t!"E. B.", t!"EB"), (t!"E.B.", t!"EB"), (t!"Ebn", t!"EBN"),
   (t!"E&BR", t!"E and BR"), (t!"Ebru", t!"EBRU"), (t!"EBWs", t!"EBW's"), (t!"Eccl", t!"ECCL"),
   (t!"Ec", t!"EC"), (t!"E. C.", t!"EC"), (t!"E.C.", t!"EC"), (t!"Ece", t!"ECE"),
   (t!"Ecem", t!"ECEM"), (t!"ECNs", t!"ECN's"), (t!"ECP&DA's", t!"ECP and DA's"),
   (t!"eCRM", t!"ECRM"), (t!"ECVs", t!"ECV's"), (t!"E. D.", t!"ED"), (t!"E.D.", t!"ED"),
   (t!"Edh", t!"EDH"), (t!"EDMs", t!"EDM's"), (t!"Edmx", t!"EDMX"), (t!"Edn", t!"EDN"),
   (t!"Eds", t!"ED's"), (t!"Edw", t!"EDW")]

/-- `whitelist/tts.tsv`, part 14. -/
def tts14 : List (Str × Str) :=
  [(t!"Eeb", t!"EEB"), (t!"E. E.", t!"EE"), (t!"E.E.", t!"EE"), (t!"Eef", t!"EEF"),
   (t!"Eega", t!"EEGA"), (t!"Ees", t!"EE's"), (t!"Eeuw", t!"EEUW"), (t!"EEZs", t!"EEZ's"),
   (t!"Ef", t!"EF"), (t!"E. F.", t!"EF"), (t!"E.F.", t!"EF"), (t!"eFS", t!"EFS"),
   (t!"Efs", t!"EF's"), (t!"Efu", t!"EFU"), (t!"Egba", t!"EGBA"), (t!"EG&G", t!"EG and G"),
   (t!"Egi", t!"EGI"), (t!"E&GR", t!"E and GR"), (t!"Egyl", t!"EGYL"), (t!"EHAs", t!"EHA's"),
   (t!"E. H.", t!"EH"), (t!"E.H.", t!"EH"), (t!"Ehttp", t!"EHTTP"), (t!"EiCs", t!"EIC's"),
   (t!"E. I.", t!"EI"), (t!"E.I.", t!"EI"), (t!"eIF", t!"EIF"), (t!"Eitr", t!"EITR"),
   (t!"EITs", t!"EIT's"), (t!"EJBs", t!"EJB's"), (t!"E. J.", t!"EJ"), (t!"E.J.", t!"EJ"),
   (t!"E. K.", t!"EK"), (t!"E.K.", t!"EK"), (t!"Ekma", t!"EKMA"), (t!"Ekow", t!"EKOW"),
   (t!"Eks", t!"EK's"), (t!"E. L.", t!"EL"), (t!"E.L.", t!"EL"), (t!"ELTs", t!"ELT's"),
   (t!"ELUs", t!"ELU's"), (t!"Embd", t!"EMBD"), (t!"eMC", t!"EMC"), (t!"EMDs", t!"EMD's"),
   (t!"Emea", t!"EMEA"), (t!"E&M", t!"E and M"), (t!"E. M.", t!"EM"), (t!"E.M.", t!"EM"),
   (t!"Emge", t!"EMGE"), (t!"E&NA", t!"E and NA"), (t!"Enas", t!"ENA's"), (t!"EnBW", t!"ENBW"),
   (t!"EncFS", t!"ENCFS"), (t!"Encyc", t!"ENCYC"), (t!"E. N.", t!"EN"), (t!"E.N.", t!"EN"),
   (t!"Enes", t!"ENE's"), (t!"Engl", t!"ENGL"), (t!"Engr", t!"ENGR"), (t!"Eni", t!"ENI"),
   (t!"Enn", t!"ENN"), (t!"Ens", t!"EN's"), (t!"Enso", t!"ENSO"), (t!"ENTJs", t!"ENTJ's")]

/-- `whitelist/tts.tsv`, part 15. -/
def tts15 : List (Str × Str) :=
  [(t!"EoD", t!"EOD"), (t!"E. O.", t!"EO"), (t!"E.O.", t!"EO"), (t!"Eois", t!"EOI's"),
   (t!"Eole", t!"EOLE"), (t!"Eol", t!"EOL"), (t!"Eolss", t!"EOLS's"), (t!"Eom", t!"EOM"),
   (t!"Eora", t!"EORA"), (t!"Eorl", t!"EORL"), (t!"Eors", t!"EOR's"), (t!"E&P", t!"E and P"),
   (t!"Epe", t!"EPE"), (t!"Ep", t!"EP"), (t!"E. P.", t!"EP"), (t!"E.P.", t!"EP"),
   (t!"Eph", t!"EPH"), (t!"Ephs", t!"EPH's"), (t!"Epi", t!"EPI"), (t!"ePO", t!"EPO"),
   (t!"Epos", t!"EPO's"), (t!"E.P.s", t!"EP's"), (t!"Eq", t!"EQ"), (t!"E. R.", t!"ER"),
   (t!"E.R.", t!"ER"), (t!"ERJs", t!"ERJ's"), (t!"Eru", t!"ERU"), (t!"Eruv", t!"ERUV"),
   (t!"Erv", t!"ERV"), (t!"ES3", t!"ES three"), (t!"Esa", t!"ESA"), (t!"Esam", t!"ESAM"),
   (t!"Esa's", t!"ESA's"), (t!"Esat", t!"ESAT"), (t!"ESCs", t!"ESC's"), (t!"Esd", t!"ESD"),
   (t!"E. S.", t!"ES"), (t!"E.S.", t!"ES"), (t!"ESPNhttp", t!"ESPNHTTP"), (t!"Esq", t!"ESQ"),
   (t!"Esq.", t!"esquire"), (t!"Esraa", t!"ESRAA"), (t!"Esra", t!"ESRA"),
   (t!"Esref", t!"ESREF"), (t!"Esri", t!"ESRI"), (t!"Estd", t!"ESTD"), (t!"Esva", t!"ESVA"),
   (t!"Etad", t!"ETAD"), (t!"ETBs", t!"ETB's"), (t!"E. T.", t!"ET"), (t!"E.T.", t!"ET"),
   (t!"ETFs", t!"ETF's"), (t!"Et'hem", t!"ETHEM"), (t!"Eti", t!"ETI"), (t!"Eto", t!"ETO"),
   (t!"Ets", t!"ET's"), (t!"ETs", t!"ET's"), (t!"Ett", t!"ETT"), (t!"Ettre", t!"ETTRE"),
   (t!"Etts", t!"ETT's"), (t!"Etz", t!"ETZ"), (t!"EUBs", t!"EUB's"), (t!"E. U.", t!"EU"),
   (t!"E.U.", t!"EU")]

/-- `whitelist/tts.tsv`, part 16. -/
def tts16 : List (Str × Str) :=
  [(t!"Eurwg", t!"EURWG"), (t!"Euse", t!"EUSE"), (t!"Eusi", t!"EUSI"), (t!"EvaGT", t!"EVAGT"),
   (t!"E. V.", t!"EV"), (t!"E.V.", t!"EV"), (t!"Evna", t!"EVNA"), (t!"EVs", t!"EV's"),
   (t!"Ewa's", t!"EWA's"), (t!"E. W.", t!"EW"), (t!"E.W.", t!"EW"), (t!"Ewha", t!"EWHA"),
   (t!"EWOs", t!"EWO's"), (t!"Ewu", t!"EWU"), (t!"E.X.", t!"EX"), (t!"Exptl", t!"EXPTL"),
   (t!"E&Y", t!"E and Y"), (t!"E. Y.", t!"EY"), (t!"Eyk", t!"EYK"), (t!"Ezaa", t!"EZAA"),
   (t!"Ez", t!"EZ"), (t!"Ezh", t!"EZH"), (t!"Ezu", t!"EZU"), (t!"Ezy", t!"EZY"),
   (t!"Faaa", t!"FAAA"), (t!"Faa", t!"FAA"), (t!"FabH", t!"FABH"), (t!"FabR", t!"FABR"),
   (t!"F.A.B.'s", t!"FAB's"), (t!"Fadl", t!"FADL"), (t!"Fa", t!"FA"), (t!"F. A.", t!"FA"),
   (t!"F.A.", t!"FA"), (t!"Faf", t!"FAF"), (t!"Fafhrd", t!"FAFHRD"), (t!"Fai", t!"FAI"),
   (t!"FAIPs", t!"FAIP's"), (t!"Faiq", t!"FAIQ"), (t!"Fal", t!"FAL"), (t!"Fasc", t!"FASC"),
   (t!"Fas", t!"FA's"), (t!"FAs", t!"FA's"), (t!"FasL", t!"FASL"), (t!"F. B.", t!"FB"),
   (t!"F.B.", t!"FB"), (t!"F.B.G.s", t!"FBG's"), (t!"FBOs", t!"FBO's"), (t!"FCBs", t!"FCB's"),
   (t!"F&C", t!"F and C"), (t!"F. C.", t!"FC"), (t!"F.C.", t!"FC"), (t!"F.C.'s", t!"FC's"),
   (t!"FD&C", t!"FD and C"), (t!"FDCPAs", t!"FDCPA's"), (t!"F. D.", t!"FD"),
   (t!"F.D.", t!"FD"), (t!"FDICs", t!"FDIC's"), (t!"FdI", t!"FDI"), (t!"F. E.", t!"FE"),
   (t!"F.E.", t!"FE"), (t!"FEGs", t!"FEG's"), (t!"Fes", t!"FE's"), (t!"F. F.", t!"FF"),
   (t!"F.F.", t!"FF")]

/-- `whitelist/tts.tsv`, part 17. -/
def tts17 : List (Str × Str) :=
  [(t!"FFs", t!"FF's"), (t!"F. G.", t!"FG"), (t!"F.G.", t!"FG"), (t!"FGs", t!"FG's"),
   (t!"F. H.", t!"FH"), (t!"F.H.", t!"FH"), (t!"FiBL", t!"FIBL"), (t!"Fi'd", t!"FID"),
   (t!"F.I", t!"F"), (t!"F&I", t!"F and I"), (t!"F. I.", t!"FI"), (t!"F.I.", t!"FI"),
   (t!"Figl", t!"FIGL"), (t!"Fio", t!"FIO"), (t!"FiO", t!"FIO"), (t!"F. J.", t!"FJ"),
   (t!"F.J.", t!"FJ"), (t!"F. K.", t!"FK"), (t!"F.K.", t!"FK"), (t!"Fla", t!"FLA"),
   (t!"Fles", t!"FLE's"), (t!"F. L.", t!"FL"), (t!"F.L.", t!"FL"), (t!"F. M.", t!"FM"),
   (t!"F.M.", t!"FM"), (t!"fMRI", t!"FMRI"), (t!"FMs", t!"FM's"), (t!"F. N.", t!"FN"),
   (t!"F.N.", t!"FN"), (t!"F. O.", t!"FO"), (t!"FPDs", t!"FPD's"), (t!"F. P.", t!"FP"),
   (t!"F.P.", t!"FP"), (t!"FPGAs", t!"FPGA's"), (t!"FPM&SA", t!"FPM and SA"),
   (t!"FPSs", t!"FPS's"), (t!"F.Q.", t!"FQ"), (t!"F. R.", t!"FR"), (t!"F.R.", t!"FR"),
   (t!"Fru", t!"FRU"), (t!"Frwydr", t!"FRWYDR"), (t!"F. s", t!"F's"), (t!"Fs", t!"F's"),
   (t!"F. S.", t!"FS"), (t!"F.S.", t!"FS"), (t!"FSSs", t!"FSS's"), (t!"FTAs", t!"FTA's"),
   (t!"Ft.", t!"Fort"), (t!"F. T.", t!"FT"), (t!"F.T.", t!"FT"), (t!"FtsA", t!"FTSA"),
   (t!"Ftuh", t!"FTUH"), (t!"F. V.", t!"FV"), (t!"F.V.", t!"FV"), (t!"F&W", t!"F and W"),
   (t!"F. W.", t!"FW"), (t!"F.W.", t!"FW"), (t!"Fyb", t!"FYB"), (t!"F.Y.", t!"FY"),
   (t!"Fyn", t!"FYN"), (t!"Fyw", t!"FYW"), (t!"F.Z.", t!"FZ"), (t!"Gaac", t!"GAAC"),
   (t!"G. A.", t!"GA")]

/-- `whitelist/tts.tsv`, part 18. -/
def tts18 : List (Str × Str) :=
  [(t!"G.A.", t!"GA"), (t!"Gbe", t!"GBE"), (t!"GbE", t!"GBE"), (t!"G. B.", t!"GB"),
   (t!"G.B.", t!"GB"), (t!"GB&NDR", t!"GB and NDR"), (t!"G&C", t!"G and C"),
   (t!"G. C.", t!"GC"), (t!"G.C.", t!"GC"), (t!"GCSEs", t!"GCSE's"),
   (t!"GC&SF", t!"GC and SF"), (t!"Gdal", t!"GDAL"), (t!"Gde", t!"GDE"), (t!"G. D.", t!"GD"),
   (t!"G.D.", t!"GD"), (t!"Gdow", t!"GDOW"), (t!"GDPs", t!"GDP's"), (t!"Gebr", t!"GEBR"),
   (t!"Gebt", t!"GEBT"), (t!"Ged", t!"GED"), (t!"G. E.", t!"GE"), (t!"G.E.", t!"GE"),
   (t!"Gek", t!"GEK"), (t!"Gen.", t!"general"), (t!"Geu", t!"GEU"), (t!"Gev", t!"GEV"),
   (t!"GeV", t!"GEV"), (t!"Gfa", t!"GFA"), (t!"GF&A", t!"GF and A"), (t!"G. F.", t!"GF"),
   (t!"G.F.", t!"GF"), (t!"G. G.", t!"GG"), (t!"G.G.", t!"GG"), (t!"Ghe", t!"GHE"),
   (t!"G. H.", t!"GH"), (t!"G.H.", t!"GH"), (t!"GHGs", t!"GHG's"), (t!"Ghir", t!"GHIR"),
   (t!"GH&SA", t!"GH and SA"), (t!"Giei", t!"GIEI"), (t!"G. I.", t!"GI"), (t!"G.I.", t!"GI"),
   (t!"G. J.", t!"GJ"), (t!"G.J.", t!"GJ"), (t!"G. K.", t!"GK"), (t!"G.K.", t!"GK"),
   (t!"Gla", t!"GLA"), (t!"G&L", t!"G and L"), (t!"G. L.", t!"GL"), (t!"G.L.", t!"GL"),
   (t!"Gli", t!"GLI"), (t!"Glis", t!"GLI's"), (t!"glnA", t!"GLNA"), (t!"Glos", t!"GLO's"),
   (t!"GmbH", t!"GMBH"), (t!"Gmel", t!"GMEL"), (t!"G. M.", t!"GM"), (t!"G.M.", t!"GM"),
   (t!"GMOs", t!"GMO's"), (t!"GMs", t!"GM's"), (t!"Gmul", t!"GMUL"), (t!"G. N.", t!"GN"),
   (t!"G.N.", t!"GN"), (t!"GNP&BR", t!"GNP and BR")]

/-- `whitelist/tts.tsv`, part 19. -/
def tts19 : List (Str × Str) :=
  [(t!"GNPs", t!"GNP's"), (t!"G.O.", t!"GO"), (t!"GPCRs", t!"GPCR's"), (t!"GPdI", t!"GPDI"),
   (t!"G&P", t!"G and P"), (t!"G. P.", t!"GP"), (t!"G.P.", t!"GP"), (t!"GpIIb", t!"GPIIB"),
   (t!"GPMGs", t!"GPMG's"), (t!"GPRs", t!"GPR's"), (t!"GPUs", t!"GPU's"), (t!"G. Q.", t!"GQ"),
   (t!"Gra", t!"GRA"), (t!"Grbac", t!"GRBAC"), (t!"GRBs", t!"GRB's"), (t!"GRCs", t!"GRC's"),
   (t!"Gre", t!"GRE"), (t!"G. R.", t!"GR"), (t!"G.R.", t!"GR"), (t!"Gryf", t!"GRYF"),
   (t!"Gry", t!"GRY"), (t!"G&S", t!"G and S"), (t!"Gs", t!"G's"), (t!"G. S.", t!"GS"),
   (t!"G.S.", t!"GS"), (t!"GSIs", t!"GSI's"), (t!"GSOp", t!"GSOP"), (t!"GTAs", t!"GTA's"),
   (t!"G. T.", t!"GT"), (t!"G.T.", t!"GT"), (t!"GTi", t!"GTI"), (t!"GTs", t!"GT's"),
   (t!"G. U.", t!"GU"), (t!"G.U.", t!"GU"), (t!"GUIs", t!"GUI's"), (t!"G. V.", t!"GV"),
   (t!"G.V.", t!"GV"), (t!"GvpA", t!"GVPA"), (t!"GWe", t!"GWE"), (t!"Gwet", t!"GWET"),
   (t!"G. W.", t!"GW"), (t!"G.W.", t!"GW"), (t!"Gwi", t!"GWI"), (t!"Gy", t!"GY"),
   (t!"G. Y.", t!"GY"), (t!"Gyn", t!"GYN"), (t!"Gyps", t!"GYP's"), (t!"Gyu", t!"GYU"),
   (t!"H. A.", t!"HA"), (t!"H.A.", t!"HA"), (t!"H&A", t!"H and A"), (t!"HBCo", t!"HBCO"),
   (t!"HBGAs", t!"HBGA's"), (t!"H. B.", t!"HB"), (t!"H.B.", t!"HB"), (t!"H&BR", t!"H and BR"),
   (t!"HCEs", t!"HCE's"), (t!"H. C.", t!"HC"), (t!"H.C.", t!"HC"), (t!"HClO", t!"HCLO"),
   (t!"HCoV", t!"HCOV"), (t!"HCPs", t!"HCP's"), (t!"Hcy", t!"HCY"), (t!"Hdad", t!"HDAD")]

/-- `whitelist/tts.tsv`, part 20. -/
def tts20 : List (Str × Str) :=
  [(t!"hDAF", t!"HDAF"), (t!"HDDs", t!"HDD's"), (t!"H. D.", t!"HD"), (t!"H.D.", t!"HD"),
   (t!"HDi", t!"HDI"), (t!"H. E.", t!"HE"), (t!"H.E.", t!"HE"), (t!"Hezb", t!"HEZB"),
   (t!"H&F", t!"H and F"), (t!"H. F.", t!"HF"), (t!"H.F.", t!"HF"), (t!"hgcA", t!"HGCA"),
   (t!"H. G.", t!"HG"), (t!"H.G.", t!"HG"), (t!"HgO", t!"HGO"), (t!"HGPs", t!"HGP's"),
   (t!"HgU", t!"HGU"), (t!"HGVs", t!"HGV's"), (t!"H&H", t!"H and H"), (t!"H. H.", t!"HH"),
   (t!"H.H.", t!"HH"), (t!"H. I.", t!"HI"), (t!"H.I.", t!"HI"), (t!"Hizb", t!"HIZB"),
   (t!"H. J.", t!"HJ"), (t!"H.J.", t!"HJ"), (t!"Hkam", t!"HKAM"), (t!"H&K", t!"H and K"),
   (t!"H. K.", t!"HK"), (t!"H.K.", t!"HK"), (t!"Hla", t!"HLA"), (t!"H. L.", t!"HL"),
   (t!"H.L.", t!"HL"), (t!"Hluk", t!"HLUK"), (t!"Hly", t!"HLY"), (t!"Hman", t!"HMAN"),
   (t!"H&M", t!"H and M"), (t!"H. M.", t!"HM"), (t!"H.M.", t!"HM"), (t!"HMOs", t!"HMO's"),
   (t!"hMRE", t!"HMRE"), (t!"H&M's", t!"H and M's"), (t!"H. N.", t!"HN"), (t!"H.N.", t!"HN"),
   (t!"H. O.", t!"HO"), (t!"H.O.", t!"HO"), (t!"H. P.", t!"HP"), (t!"H.P.", t!"HP"),
   (t!"H.Q.", t!"HQ"), (t!"H&R", t!"H and R"), (t!"H. R.", t!"HR"), (t!"H.R.", t!"HR"),
   (t!"HRo", t!"HRO"), (t!"HRs", t!"HR's"), (t!"Hsee", t!"HSEE"), (t!"Hs", t!"H's"),
   (t!"H. S.", t!"HS"), (t!"H.S.", t!"HS"), (t!"hSlo", t!"HSLO"), (t!"HSPs", t!"HSP's"),
   (t!"HSTs", t!"HST's"), (t!"hTAS", t!"HTAS"), (t!"HTAs", t!"HTA's"), (t!"H. T.", t!"HT")]

/-- `whitelist/tts.tsv`, part 21. -/
def tts21 : List (Str × Str) :=
  [(t!"H.T.", t!"HT"), (t!"Htin", t!"HTIN"), (t!"Htoo", t!"HTOO"), (t!"HtrA", t!"HTRA"),
   (t!"HTRs", t!"HTR's"), (t!"Htwa", t!"HTWA"), (t!"H. U.", t!"HU"), (t!"HVCs", t!"HVC's"),
   (t!"Hvem", t!"HVEM"), (t!"H. V.", t!"HV"), (t!"H.V.", t!"HV"), (t!"H. W.", t!"HW"),
   (t!"H.W.", t!"HW"), (t!"Hwy", t!"HWY"), (t!"H. Y.", t!"HY"), (t!"H.Y.", t!"HY"),
   (t!"H. Z.", t!"HZ"), (t!"HZ&PC", t!"HZ and PC"), (t!"IaaS", t!"IAAS"), (t!"Iaca", t!"IACA"),
   (t!"Iacob", t!"IACOB"), (t!"IACTs", t!"IACT's"), (t!"Iacub", t!"IACUB"),
   (t!"I. A.", t!"IA"), (t!"I.A.", t!"IA"), (t!"Iapa", t!"IAPA"), (t!"Iar", t!"IAR"),
   (t!"IAUCs", t!"IAUC's"), (t!"Iax", t!"IAX"), (t!"Ibac", t!"IBAC"), (t!"Ibaes", t!"IBAE's"),
   (t!"IBCs", t!"IBC's"), (t!"IBDA'A", t!"IBDAA"), (t!"Ibda", t!"IBDA"), (t!"I. B.", t!"IB"),
   (t!"I.B.", t!"IB"), (t!"Ibm", t!"IBM"), (t!"Ibne", t!"IBNE"), (t!"Ibra", t!"IBRA"),
   (t!"Ibsa", t!"IBSA"), (t!"Ibs", t!"IB's"), (t!"iBT", t!"IBT"), (t!"Ibu", t!"IBU"),
   (t!"ICBMs", t!"ICBM's"), (t!"Icche", t!"ICCHE"), (t!"I&C", t!"I and C"), (t!"Ic", t!"IC"),
   (t!"I. C.", t!"IC"), (t!"I.C.", t!"IC"), (t!"Ici", t!"ICI"), (t!"iCN", t!"ICN"),
   (t!"Ico", t!"ICO"), (t!"IcRn", t!"ICRN"), (t!"ICs", t!"IC's"), (t!"ICTs", t!"ICT's"),
   (t!"ICTVdB", t!"ICTVDB"), (t!"ICv", t!"ICV"), (t!"iCyt", t!"ICYT"), (t!"Iddaa", t!"IDDAA"),
   (t!"Idd", t!"IDD"), (t!"ID'd", t!"IDD"), (t!"I. D.", t!"ID"), (t!"I.D.", t!"ID"),
   (t!"Idi", t!"IDI")]

/-- `whitelist/tts.tsv`, part 22. -/
def tts22 : List (Str × Str) :=
  [(t!"Idir", t!"IDIR"), (t!"IDLHs", t!"IDLH's"), (t!"Idm", t!"IDM"), (t!"IDPs", t!"IDP's"),
   (t!"IDs", t!"ID's"), (t!"IDx", t!"IDX"), (t!"Ifa", t!"IFA"), (t!"IfF", t!"IFF"),
   (t!"Ifft", t!"IFFT"), (t!"Ifi", t!"IFI"), (t!"IFIs", t!"IFI's"), (t!"IfM", t!"IFM"),
   (t!"Ifni", t!"IFNI"), (t!"IFNs", t!"IFN's"), (t!"Ifop", t!"IFOP"), (t!"IFRSs", t!"IFRS's"),
   (t!"Iga", t!"IGA"), (t!"IgA", t!"IGA"), (t!"IGFs", t!"IGF's"), (t!"Ig", t!"IG"),
   (t!"I.G.", t!"IG"), (t!"IgM", t!"IGM"), (t!"Ign", t!"IGN"), (t!"Ih", t!"IH"),
   (t!"I. H.", t!"IH"), (t!"Ihn", t!"IHN"), (t!"Ihor", t!"IHOR"), (t!"Iht", t!"IHT"),
   (t!"IIb", t!"IIB"), (t!"IIc", t!"IIC"), (t!"IIfx", t!"IIFX"), (t!"Iiga", t!"IIGA"),
   (t!"IIga", t!"IIGA"), (t!"IIgs", t!"IIG's"), (t!"IIGs", t!"IIG's"), (t!"IIIb", t!"IIIB"),
   (t!"IIIBy", t!"IIIBY"), (t!"IIIc", t!"IIIC"), (t!"IIId", t!"IIID"), (t!"I. I.", t!"II"),
   (t!"I.I.", t!"II"), (t!"Ija", t!"IJA"), (t!"I. J.", t!"IJ"), (t!"Ijok", t!"IJOK"),
   (t!"Ijui", t!"IJUI"), (t!"Ikh", t!"IKH"), (t!"I.K.", t!"IK"), (t!"IKr", t!"IKR"),
   (t!"Iksa", t!"IKSA"), (t!"Iku", t!"IKU"), (t!"Ilbe", t!"ILBE"), (t!"IL&FS", t!"IL and FS"),
   (t!"Ili", t!"ILI"), (t!"I. L.", t!"IL"), (t!"I.L.", t!"IL"), (t!"Ilm", t!"ILM"),
   (t!"Ilu", t!"ILU"), (t!"IMbd", t!"IMBD"), (t!"IMDb.", t!"IMDB"), (t!"IMDb", t!"IMDB"),
   (t!"I&M", t!"I and M"), (t!"I. M.", t!"IM"), (t!"I.M.", t!"IM"), (t!"Iml", t!"IML")]

/-- `whitelist/tts.tsv`, part 23. -/
def tts23 : List (Str × Str) :=
  [(t!"Imm", t!"IMM"), (t!"Imms'", t!"IMM's"), (t!"Impr", t!"IMPR"), (t!"iMSNs", t!"IMSN's"),
   (t!"Imst", t!"IMST"), (t!"Inba", t!"INBA"), (t!"Ind", t!"IND"), (t!"Infs", t!"INF's"),
   (t!"inHg", t!"INHG"), (t!"I. N.", t!"IN"), (t!"I.N.", t!"IN"), (t!"InlB", t!"INLB"),
   (t!"InP", t!"INP"), (t!"Inre", t!"INRE"), (t!"Inspx", t!"INSPX"), (t!"Ints", t!"INT's"),
   (t!"INTs", t!"INT's"), (t!"Intu", t!"INTU"), (t!"Ioba", t!"IOBA"), (t!"IODs", t!"IOD's"),
   (t!".I.o.", t!"IO"), (t!"Io.", t!"IO"), (t!"Io", t!"IO"), (t!".IO", t!"IO"),
   (t!"I/O", t!"IO"), (t!"Ioka", t!"IOKA"), (t!"Iok", t!"IOK"), (t!"IoM", t!"IOM"),
   (t!"IOPs", t!"IOP's"), (t!"iOS", t!"IOS"), (t!"Io's", t!"IO's"), (t!"I/Os", t!"IO's"),
   (t!"I.O.'s", t!"IO's"), (t!"Iosu", t!"IOSU"), (t!"IoT", t!"IOT"), (t!"IoW", t!"IOW"),
   (t!"IPCs", t!"IPC's"), (t!"Ip", t!"IP"), (t!"I.P.", t!"IP"), (t!"Ipo", t!"IPO"),
   (t!"IPPs", t!"IPP's"), (t!"Ippu", t!"IPPU"), (t!"iPPV", t!"IPPV"), (t!"iPSC", t!"IPSC"),
   (t!"iPSCs", t!"IPSC's"), (t!"iPS", t!"IPS"), (t!"IPs", t!"IP's"), (t!"IPv", t!"IPV"),
   (t!"iQ", t!"IQ"), (t!"I.Q.", t!"IQ"), (t!"Irgm", t!"IRGM"), (t!"Irig", t!"IRIG"),
   (t!"Iril", t!"IRIL"), (t!"Ir", t!"IR"), (t!"I. R.", t!"IR"), (t!"I.R.", t!"IR"),
   (t!"Irla", t!"IRLA"), (t!"Irmis", t!"IRMI's"), (t!"Iro", t!"IRO"), (t!"Irra", t!"IRRA"),
   (t!"IRs", t!"IR's"), (t!"Iru", t!"IRU"), (t!"ISAv", t!"ISAV"), (t!"Isba", t!"ISBA")]

/-- `whitelist/tts.tsv`, part 24. -/
def tts24 : List (Str × Str) :=
  [(t!"ISBNs", t!"ISBN's"), (t!"isCf", t!"ISCF"), (t!"iSC", t!"ISC"), (t!"Isc", t!"ISC"),
   (t!"Isd", t!"ISD"), (t!"Isgec", t!"ISGEC"), (t!"Ishq", t!"ISHQ"), (t!"I. S.", t!"IS"),
   (t!"I.S.", t!"IS"), (t!"Isl", t!"ISL"), (t!"ISMNs", t!"ISMN's"), (t!"ISPs", t!"ISP's"),
   (t!"Isra'il", t!"ISRAIL"), (t!"Isra", t!"ISRA"), (t!"Iss", t!"IS's"),
   (t!"ISSNs", t!"ISSN's"), (t!"Isu", t!"ISU"), (t!"Ite", t!"ITE"), (t!"ITHs", t!"ITH's"),
   (t!"Iti", t!"ITI"), (t!"I.T.", t!"IT"), (t!"Itk", t!"ITK"), (t!"ITNNs", t!"ITNN's"),
   (t!"Itoi", t!"ITOI"), (t!"iTP", t!"ITP"), (t!"Itse", t!"ITSE"), (t!"Itu", t!"ITU"),
   (t!"Itz", t!"ITZ"), (t!"Iucn", t!"IUCN"), (t!"IUDs", t!"IUD's"), (t!"Iuz", t!"IUZ"),
   (t!"I. V.", t!"IV"), (t!"I.V.", t!"IV"), (t!"IVs", t!"IV's"), (t!"Ivu", t!"IVU"),
   (t!"Iwas", t!"IWA's"), (t!"Iwaz", t!"IWAZ"), (t!"IWBs", t!"IWB's"), (t!"I. W.", t!"IW"),
   (t!"Iwuh", t!"IWUH"), (t!"IXb", t!"IXB"), (t!"IXBs", t!"IXB's"), (t!"IXCs", t!"IXC's"),
   (t!"IXe", t!"IXE"), (t!"iXL", t!"IXL"), (t!"Iya", t!"IYA"), (t!"Iyar", t!"IYAR"),
   (t!"Iyi", t!"IYI"), (t!"I. Y.", t!"IY"), (t!"I.Y.", t!"IY"), (t!"Jaf", t!"JAF"),
   (t!"J. A.", t!"JA"), (t!"J&B", t!"J and B"), (t!"J. B.", t!"JB"), (t!"J.B.", t!"JB"),
   (t!"J. C.", t!"JC"), (t!"J.C.", t!"JC"), (t!"JCRs", t!"JCR's"), (t!"JdeBP", t!"JDEBP"),
   (t!"J. D.", t!"JD"), (t!"J.D.", t!"JD"), (t!"J&D's", t!"J and D's"), (t!"J.D.s", t!"JD's"),
   (t!"J. E.", t!"JE")]

/-- `whitelist/tts.tsv`, part 25. -/
def tts25 : List (Str × Str) :=
  [(t!"J.E.", t!"JE"), (t!"J. F.", t!"JF"), (t!"J.F.", t!"JF"), (t!"J. G.", t!"JG"),
   (t!"J.G.", t!"JG"), (t!"J. H.", t!"JH"), (t!"J.H.", t!"JH"), (t!"JHs", t!"JH's"),
   (t!"JHSVs", t!"JHSV's"), (t!"JHud", t!"JHUD"), (t!"J. I.", t!"JI"), (t!"J.I.", t!"JI"),
   (t!"J&J", t!"J and J"), (t!"J. J.", t!"JJ"), (t!"J.J.", t!"JJ"), (t!"Jka", t!"JKA"),
   (t!"J&K", t!"J and K"), (t!"J. K.", t!"JK"), (t!"J.K.", t!"JK"), (t!"J. L.", t!"JL"),
   (t!"J.L.", t!"JL"), (t!"J. M.", t!"JM"), (t!"J.M.", t!"JM"), (t!"J. N.", t!"JN"),
   (t!"J.N.", t!"JN"), (t!"Jno", t!"JNO"), (t!"J. O.", t!"JO"), (t!"J.O.", t!"JO"),
   (t!"J&P", t!"J and P"), (t!"J.P.", t!"JP"), (t!"J.Q.", t!"JQ"), (t!"J&R", t!"J and R"),
   (t!"J. R.", t!"JR"), (t!"J.R.", t!"JR"), (t!"Jr.", t!"junior"), (t!"Jr", t!"junior"),
   (t!"J.R.'s", t!"JR's"), (t!"Js", t!"J's"), (t!"J. S.", t!"JS"), (t!"J.S.", t!"JS"),
   (t!"J&T", t!"J and T"), (t!"J. T.", t!"JT"), (t!"J.T.", t!"JT"), (t!"JT&KW", t!"JT and KW"),
   (t!"J. U.", t!"JU"), (t!"J&V", t!"J and V"), (t!"J. V.", t!"JV"), (t!"J.V.", t!"JV"),
   (t!"Jwa", t!"JWA"), (t!"J. W.", t!"JW"), (t!"J.W.", t!"JW"), (t!"J. Y.", t!"JY"),
   (t!"J.Y.", t!"JY"), (t!"Jym", t!"JYM"), (t!"Jymn", t!"JYMN"), (t!"J. Z.", t!"JZ"),
   (t!"J.Z.", t!"JZ"), (t!"K. A.", t!"KA"), (t!"K.A.", t!"KA"), (t!"K&B", t!"K and B"),
   (t!"K. B.", t!"KB"), (t!"K.B.", t!"KB"), (t!"K. C.", t!"KC"), (t!"K.C.", t!"KC")]

/-- `whitelist/tts.tsv`, part 26. -/
def tts26 : List (Str × Str) :=
  [(t!"K.C.'s", t!"KC's"), (t!"kDa", t!"KDA"), (t!"K&D", t!"K and D"), (t!"K. D.", t!"KD"),
   (t!"K.D.", t!"KD"), (t!"K. D.'s", t!"KD's"), (t!"K.D.'s", t!"KD's"), (t!"Ke", t!"KE"),
   (t!"K. E.", t!"KE"), (t!"K.E.", t!"KE"), (t!"K.F.", t!"KF"), (t!"KgU", t!"KGU"),
   (t!"Khizr", t!"KHIZR"), (t!"K. H.", t!"KH"), (t!"K.H.", t!"KH"), (t!"Khlav", t!"KHLAV"),
   (t!"Khmu", t!"KHMU"), (t!"Khri", t!"KHRI"), (t!"Khru", t!"KHRU"), (t!"K. I.", t!"KI"),
   (t!"K.I.", t!"KI"), (t!"Kjer", t!"KJER"), (t!"K. J.", t!"KJ"), (t!"K.J.", t!"KJ"),
   (t!"Kjop", t!"KJOP"), (t!"KJo's", t!"KJO's"), (t!"K. K.", t!"KK"), (t!"K.K.", t!"KK"),
   (t!"Kle", t!"KLE"), (t!"K. L.", t!"KL"), (t!"K.L.", t!"KL"), (t!"K&M", t!"K and M"),
   (t!"K. M.", t!"KM"), (t!"K.M.", t!"KM"), (t!"K&N", t!"K and N"), (t!"K. N.", t!"KN"),
   (t!"K.N.", t!"KN"), (t!"K. O.", t!"KO"), (t!"K.O.", t!"KO"), (t!"KPIs", t!"KPI's"),
   (t!"K&P", t!"K and P"), (t!"K. P.", t!"KP"), (t!"K.P.", t!"KP"), (t!"Kppen", t!"KPPEN"),
   (t!"KRCs", t!"KRC's"), (t!"K.R.I.T.'s", t!"KRIT's"), (t!"Krka", t!"KRKA"),
   (t!"K. R.", t!"KR"), (t!"K.R.", t!"KR"), (t!"Krne", t!"KRNE"), (t!"Kroz", t!"KROZ"),
   (t!"Kru", t!"KRU"), (t!"Kseur", t!"KSEUR"), (t!"Ksevt", t!"KSEVT"), (t!"K. S.", t!"KS"),
   (t!"K.S.", t!"KS"), (t!"Ktav", t!"KTAV"), (t!"KT&K", t!"KT and K"), (t!"K. T.", t!"KT"),
   (t!"K.T.", t!"KT"), (t!"Kuaa", t!"KUAA"), (t!"Kud", t!"KUD"), (t!"K. U.", t!"KU"),
   (t!"K.U.", t!"KU")]

/-- `whitelist/tts.tsv`, part 27. -/
def tts27 : List (Str × Str) :=
  [(t!"Kutb", t!"KUTB"), (t!"Kvik", t!"KVIK"), (t!"Kvit", t!"KVIT"), (t!"K. V.", t!"KV"),
   (t!"K.V.", t!"KV"), (t!"Kvyat", t!"KVYAT"), (t!"Kyse", t!"KYSE"), (t!"Kyt", t!"KYT"),
   (t!"K. Z.", t!"KZ"), (t!"L. A.", t!"LA"), (t!"L.A.'s", t!"LA's"), (t!"Lay's", t!"LAY's"),
   (t!"LBi", t!"LBI"), (t!"L. B.", t!"LB"), (t!"L.B.", t!"LB"), (t!"LBPs", t!"LBP's"),
   (t!"LCAs", t!"LCA's"), (t!"LCCs", t!"LCC's"), (t!"LC&DR", t!"LC and DR"),
   (t!"LCDs", t!"LCD's"), (t!"LCIs", t!"LCI's"), (t!"L. C.", t!"LC"), (t!"L.C.", t!"LC"),
   (t!"LCSs", t!"LCS's"), (t!"LCTs", t!"LCT's"), (t!"LCVPs", t!"LCVP's"), (t!"Lda", t!"LDA"),
   (t!"LDCs", t!"LDC's"), (t!"L. D.", t!"LD"), (t!"L.D.", t!"LD"), (t!"L. E.", t!"LE"),
   (t!"L.E.", t!"LE"), (t!"LFFCs", t!"LFFC's"), (t!"L. F.", t!"LF"), (t!"L.F.", t!"LF"),
   (t!"LFs", t!"LF's"), (t!"LFSRs", t!"LFSR's"), (t!"L. G.", t!"LG"), (t!"L.G.", t!"LG"),
   (t!"LGMs", t!"LGM's"), (t!"LG&RDD", t!"LG and RDD"), (t!"LGs", t!"LG's"),
   (t!"LGUs", t!"LGU's"), (t!"LGVs", t!"LGV's"), (t!"Lha", t!"LHA"), (t!"L. H.", t!"LH"),
   (t!"L.H.", t!"LH"), (t!"L. I.", t!"LI"), (t!"L.I.", t!"LI"), (t!"Lje", t!"LJE"),
   (t!"L. J.", t!"LJ"), (t!"L.J.", t!"LJ"), (t!"L. K.", t!"LK"), (t!"Llapi", t!"LLAPI"),
   (t!"L&L", t!"L and L"), (t!"L. L.", t!"LL"), (t!"L.L.", t!"LL"), (t!"LMGs", t!"LMG's"),
   (t!"L. M.", t!"LM"), (t!"L.M.", t!"LM"), (t!"LMPs", t!"LMP's"), (t!"LMQs", t!"LMQ's"),
   (t!"LnAIB", t!"LNAIB"), (t!"L&N", t!"L and N")]

/-- `whitelist/tts.tsv`, part 28. -/
def tts28 : List (Str × Str) :=
  [(t!"L. N.", t!"LN"), (t!"L.N.", t!"LN"), (t!"L.O.C.'s", t!"LOC's"), (t!"Lokk", t!"LOKK"),
   (t!"l'OL", t!"LOL"), (t!"L. O.", t!"LO"), (t!"L.O.", t!"LO"), (t!"LPARs", t!"LPAR's"),
   (t!"L&P", t!"L and P"), (t!"L. P.", t!"LP"), (t!"L.P.", t!"LP"), (t!"L&PM", t!"L and PM"),
   (t!"LPMud", t!"LPMUD"), (t!"LPs", t!"LP's"), (t!"LPThe", t!"LPTHE"), (t!"L. R.", t!"LR"),
   (t!"L.R.", t!"LR"), (t!"LRTs", t!"LRT's"), (t!"LRVs", t!"LRV's"), (t!"LSDs", t!"LSD's"),
   (t!"LSi", t!"LSI"), (t!"Ls", t!"L's"), (t!"L. S.", t!"LS"), (t!"L.S.", t!"LS"),
   (t!"LSTs", t!"LST's"), (t!"LSVCCs", t!"LSVCC's"), (t!"Ltda", t!"LTDA"),
   (t!"Ltd.", t!"limited"), (t!"L&T", t!"L and T"), (t!"Lt.", t!"lieutenant"),
   (t!"L. T.", t!"LT"), (t!"L.T.", t!"LT"), (t!"L. U.", t!"LU"), (t!"L. V.", t!"LV"),
   (t!"L.V.", t!"LV"), (t!"L. W.", t!"LW"), (t!"L.W.", t!"LW"), (t!"L.Y.", t!"LY"),
   (t!"L&YR", t!"L and YR"), (t!"M. A.", t!"MA"), (t!"M.A.", t!"MA"), (t!"M&A", t!"M and A"),
   (t!"Mbewu", t!"MBEWU"), (t!"M. B.", t!"MB"), (t!"M.B.", t!"MB"), (t!"mBo", t!"MBO"),
   (t!"Mbre", t!"MBRE"), (t!"MCCs", t!"MCC's"), (t!"M. C.", t!"MC"), (t!"M.C.", t!"MC"),
   (t!"MCs", t!"MC's"), (t!"mcyG", t!"MCYG"), (t!"MDCs", t!"MDC's"), (t!"mdDA", t!"MDDA"),
   (t!"MD&DI", t!"MD and DI"), (t!"Mde", t!"MDE"), (t!"MDGs", t!"MDG's"),
   (t!"MDHUs", t!"MDHU's"), (t!"mDia", t!"MDIA"), (t!"MDic", t!"MDIC"), (t!"M. D.", t!"MD"),
   (t!"M.D.", t!"MD"), (t!"M. E.", t!"ME"), (t!"M.E.", t!"ME")]

/-- `whitelist/tts.tsv`, part 29. -/
def tts29 : List (Str × Str) :=
  [(t!"MFDs", t!"MFD's"), (t!"MFe", t!"MFE"), (t!"M. F.", t!"MF"), (t!"M.F.", t!"MF"),
   (t!"MFTs", t!"MFT's"), (t!"Mgadla", t!"MGADLA"), (t!"Mgal", t!"MGAL"), (t!"Mga", t!"MGA"),
   (t!"Mgbo", t!"MGBO"), (t!"MGen", t!"MGEN"), (t!"M&G", t!"M and G"), (t!"M. G.", t!"MG"),
   (t!"M.G.", t!"MG"), (t!"M&GN", t!"M and GN"), (t!"M&GR's", t!"M and GR's"),
   (t!"Mha", t!"MHA"), (t!"MHCs", t!"MHC's"), (t!"MH&L", t!"MH and L"), (t!"M&H", t!"M and H"),
   (t!"M. H.", t!"MH"), (t!"M.H.", t!"MH"), (t!"Mhor", t!"MHOR"), (t!"Mhow", t!"MHOW"),
   (t!"M.I.A.'s", t!"MIA's"), (t!"M&I", t!"M and I"), (t!"M. I.", t!"MI"), (t!"M.I.", t!"MI"),
   (t!"M&J", t!"M and J"), (t!"M. J.", t!"MJ"), (t!"M.J.", t!"MJ"), (t!"M. K.", t!"MK"),
   (t!"M.K.", t!"MK"), (t!"MKs", t!"MK's"), (t!"MLAs", t!"MLA's"), (t!"MLCs", t!"MLC's"),
   (t!"Mlle", t!"MLLE"), (t!"M&L", t!"M and L"), (t!"M. L.", t!"ML"), (t!"M.L.", t!"ML"),
   (t!"MLPs", t!"MLP's"), (t!"MM&A", t!"MM and A"), (t!"M&M", t!"M and M"),
   (t!"M. M.", t!"MM"), (t!"M.M.", t!"MM"), (t!"M&M's", t!"M and M's"), (t!"MNCs", t!"MNC's"),
   (t!"M&NF", t!"M and NF"), (t!"M. N.", t!"MN"), (t!"M.N.", t!"MN"),
   (t!"M.O.G.U.E.R.A.'s", t!"MOGUERA's"), (t!"M. O.", t!"MO"), (t!"M.O.", t!"MO"),
   (t!"MpA", t!"MPA"), (t!"MPAs", t!"MPA's"), (t!"MPBu", t!"MPBU"), (t!"MP&I", t!"MP and I"),
   (t!"MPi", t!"MPI"), (t!"MPLMs", t!"MPLM's"), (t!"M&P", t!"M and P"), (t!"M. P.", t!"MP"),
   (t!"M.P.", t!"MP"), (t!"MPPs", t!"MPP's"), (t!"M.P.'s", t!"MP's"), (t!"MPs", t!"MP's")]

/-- `whitelist/tts.tsv`, part 30. -/
def tts30 : List (Str × Str) :=
  [(t!"MPThe", t!"MPTHE"), (t!"Mpu", t!"MPU"), (t!"M. Q.", t!"MQ"), (t!"Mra", t!"MRA"),
   (t!"MRBs", t!"MRB's"), (t!"MR&LE", t!"MR and LE"), (t!"M. R.", t!"MR"), (t!"M.R.", t!"MR"),
   (t!"mRNA", t!"MRNA"), (t!"mRNAs", t!"MRNA's"), (t!"MRTs", t!"MRT's"), (t!"Mse", t!"MSE"),
   (t!"M&S", t!"M and S"), (t!"M. S.", t!"MS"), (t!"M.S.", t!"MS"), (t!"MSPs", t!"MSP's"),
   (t!"Mta", t!"MTA"), (t!"MTAs", t!"MTA's"), (t!"M&T", t!"M and T"), (t!"M. T.", t!"MT"),
   (t!"M.T.", t!"MT"), (t!"Mtor", t!"MTOR"), (t!"mtvU", t!"MTVU"), (t!"MTVu", t!"MTVU"),
   (t!"M. U.", t!"MU"), (t!"M.U.s", t!"MU's"), (t!"MVMs", t!"MVM's"), (t!"M. V.", t!"MV"),
   (t!"M.V.", t!"MV"), (t!"MVPs", t!"MVP's"), (t!"MVs", t!"MV's"), (t!"MWe", t!"MWE"),
   (t!"M. W.", t!"MW"), (t!"M.W.", t!"MW"), (t!"M. X.", t!"MX"), (t!"Myc", t!"MYC"),
   (t!"MyDD", t!"MYDD"), (t!"M. Y.", t!"MY"), (t!"M.Y.", t!"MY"), (t!"MySQL", t!"MYSQL"),
   (t!"M. Z.", t!"MZ"), (t!"N. A.", t!"NA"), (t!"N.A.", t!"NA"), (t!"N.B.A.'s", t!"NBA's"),
   (t!"NBAs", t!"NBA's"), (t!"N. B.", t!"NB"), (t!"N.B.", t!"NB"), (t!"NBTwo", t!"NBTWO"),
   (t!"NCAAs", t!"NCAA's"), (t!"NCCs", t!"NCC's"), (t!"N. C.", t!"NC"), (t!"N.C.", t!"NC"),
   (t!"NCOs", t!"NCO's"), (t!"N. D.", t!"ND"), (t!"N.D.", t!"ND"), (t!"N. E.", t!"NE"),
   (t!"N.E.", t!"NE"), (t!"NFATc", t!"NFATC"), (t!"N. F.", t!"NF"), (t!"N.F.", t!"NF"),
   (t!"Nge", t!"NGE"), (t!"N. G.", t!"NG"), (t!"N.G.", t!"NG"), (t!"NGOs", t!"NGO's")]

/-- `whitelist/tts.tsv`, part 31. -/
def tts31 : List (Str × Str) :=
  [(t!"Nha", t!"NHA"), (t!"NHCEs", t!"NHCE's"), (t!"NHCs", t!"NHC's"),
   (t!"NHM&W", t!"NHM and W"), (t!"N. H.", t!"NH"), (t!"N.H.", t!"NH"), (t!"NHPs", t!"NHP's"),
   (t!"N. I.", t!"NI"), (t!"N.I.", t!"NI"), (t!"N'I", t!"NI"), (t!"N. J.", t!"NJ"),
   (t!"N.J.", t!"NJ"), (t!"Njoo", t!"NJOO"), (t!"N.J.'s", t!"NJ's"), (t!"N. K.", t!"NK"),
   (t!"N.K.", t!"NK"), (t!"N. L.", t!"NL"), (t!"N.L.", t!"NL"), (t!"NLRs", t!"NLR's"),
   (t!"N. M.", t!"NM"), (t!"N.M.", t!"NM"), (t!"N. N.", t!"NN"), (t!"N.N.", t!"NN"),
   (t!"NPCs", t!"NPC's"), (t!"NPMs", t!"NPM's"), (t!"N. P.", t!"NP"), (t!"N.P.", t!"NP"),
   (t!"NPs", t!"NP's"), (t!"N. Q.", t!"NQ"), (t!"Nri", t!"NRI"), (t!"NRIs", t!"NRI's"),
   (t!"NRJs", t!"NRJ's"), (t!"N. R.", t!"NR"), (t!"N.R.", t!"NR"), (t!"N. S.", t!"NS"),
   (t!"N.S.", t!"NS"), (t!"NSOs", t!"NSO's"), (t!"Nta", t!"NTA"), (t!"N. T.", t!"NT"),
   (t!"N.T.", t!"NT"), (t!"N.U.", t!"NU"), (t!"NvDA's", t!"NVDA's"), (t!"N. V.", t!"NV"),
   (t!"N.V.", t!"NV"), (t!"N&W", t!"N and W"), (t!"N. W.", t!"NW"), (t!"N.W.", t!"NW"),
   (t!"N. Y.", t!"NY"), (t!"N.Y.", t!"NY"), (t!"N'Zif", t!"NZIF"), (t!"NZiK", t!"NZIK"),
   (t!"N'Zi", t!"NZI"), (t!"N.Z.", t!"NZ"), (t!"O. A.", t!"OA"), (t!"O.A.", t!"OA"),
   (t!"Oblt", t!"OBLT"), (t!"O.B.", t!"OB"), (t!"O. C.", t!"OC"), (t!"O.C.", t!"OC"),
   (t!"Octl", t!"OCTL"), (t!"O. D.", t!"OD"), (t!"O.E.", t!"OE"), (t!"O.F.", t!"OF"),
   (t!"O&G", t!"O and G")]

/-- `whitelist/tts.tsv`, part 32. -/
def tts32 : List (Str × Str) :=
  [(t!"O. G.", t!"OG"), (t!"O.G.", t!"OG"), (t!"O. H.", t!"OH"), (t!"O.H.", t!"OH"),
   (t!"O. I.", t!"OI"), (t!"O.I.", t!"OI"), (t!"O. J.", t!"OJ"), (t!"O.J.", t!"OJ"),
   (t!"OK'd", t!"OKD"), (t!"OKd", t!"OKD"), (t!"Oke", t!"OKE"), (t!"O&K", t!"O and K"),
   (t!"O. K.", t!"OK"), (t!"O.K.", t!"OK"), (t!"O. L.", t!"OL"), (t!"O.L.", t!"OL"),
   (t!"Olo", t!"OLO"), (t!"Olov", t!"OLOV"), (t!"OLs", t!"OL's"), (t!"O&MFL", t!"O and MFL"),
   (t!"OMGs", t!"OMG's"), (t!"O. M.", t!"OM"), (t!"O.M.", t!"OM"), (t!"OmOm", t!"OMOM"),
   (t!"Om's", t!"OM's"), (t!"O. N.", t!"ON"), (t!"O.N.", t!"ON"), (t!"O&O", t!"O and O"),
   (t!"O. O.", t!"OO"), (t!"O.O.", t!"OO"), (t!"Oop", t!"OOP"), (t!"Oo's", t!"OO's"),
   (t!"Ootw", t!"OOTW"), (t!"OPMs", t!"OPM's"), (t!"O. P.", t!"OP"), (t!"O.P.", t!"OP"),
   (t!"Opr", t!"OPR"), (t!"ORFs", t!"ORF's"), (t!"OR&N", t!"OR and N"), (t!"O. R.", t!"OR"),
   (t!"Osa", t!"OSA"), (t!"OSBs", t!"OSB's"), (t!"O. S.", t!"OS"), (t!"O.S.", t!"OS"),
   (t!"OSTs", t!"OST's"), (t!"O.T.", t!"OT"), (t!"OTs", t!"OT's"), (t!"Otu", t!"OTU"),
   (t!"O.U.", t!"OU"), (t!"Ovca", t!"OVCA"), (t!"Ovda", t!"OVDA"), (t!"Ovo", t!"OVO"),
   (t!"Ov", t!"OV"), (t!"O. V.", t!"OV"), (t!"O.V.", t!"OV"), (t!"OWCs", t!"OWC's"),
   (t!"O. W.", t!"OW"), (t!"O.W.", t!"OW"), (t!"P. A.", t!"PA"), (t!"P.A.", t!"PA"),
   (t!"pBCE", t!"PBCE"), (t!"P. B.", t!"PB"), (t!"P.B.", t!"PB"), (t!"PCBs", t!"PCB's")]

/-- `whitelist/tts.tsv`, part 33. -/
def tts33 : List (Str × Str) :=
  [(t!"PCDDs", t!"PCDD's"), (t!"PCeU", t!"PCEU"), (t!"PCIe", t!"PCIE"), (t!"PcoA", t!"PCOA"),
   (t!"P. C.", t!"PC"), (t!"P.C.", t!"PC"), (t!"PCRev", t!"PCREV"), (t!"P.C.s", t!"PC's"),
   (t!"pDAB", t!"PDAB"), (t!"PDAs", t!"PDA's"), (t!"PDBsum", t!"PDBSUM"),
   (t!"PDCs", t!"PDC's"), (t!"PD&D", t!"PD and D"), (t!"PDEs", t!"PDE's"),
   (t!"PDFs", t!"PDF's"), (t!"P&D", t!"P and D"), (t!"P. D.", t!"PD"), (t!"P.D.", t!"PD"),
   (t!"PDPs", t!"PDP's"), (t!"PDs", t!"PD's"), (t!"P.E.I.'s", t!"PEI's"), (t!"P. E.", t!"PE"),
   (t!"P.E.", t!"PE"), (t!"PFs", t!"PF's"), (t!"PFW&C", t!"PFW and C"), (t!"PGMs", t!"PGM's"),
   (t!"PG&N", t!"PG and N"), (t!"P&G", t!"P and G"), (t!"P. G.", t!"PG"), (t!"P.G.", t!"PG"),
   (t!"Phlo", t!"PHLO"), (t!"P&H", t!"P and H"), (t!"P. H.", t!"PH"), (t!"P.H.", t!"PH"),
   (t!"PHPs", t!"PHP's"), (t!"P&I", t!"P and I"), (t!"P. I.", t!"PI"), (t!"P.I.", t!"PI"),
   (t!"Piz", t!"PIZ"), (t!"P. J.", t!"PJ"), (t!"P.J.", t!"PJ"), (t!"PJs", t!"PJ's"),
   (t!"P. K.", t!"PK"), (t!"P.K.", t!"PK"), (t!"PLCs", t!"PLC's"), (t!"P. L.", t!"PL"),
   (t!"P.L.", t!"PL"), (t!"PMMoV", t!"PMMOV"), (t!"P. M.", t!"PM"), (t!"P.M.", t!"PM"),
   (t!"PMs", t!"PM's"), (t!"PNaCl", t!"PNACL"), (t!"Pnau", t!"PNAU"), (t!"PNEs", t!"PNE's"),
   (t!"PNETs", t!"PNET's"), (t!"PNNs", t!"PNN's"), (t!"PNoy", t!"PNOY"), (t!"P. N.", t!"PN"),
   (t!"P.N.", t!"PN"), (t!"P.O.D.'s", t!"POD's"), (t!"P&O", t!"P and O"), (t!"P. O.", t!"PO"),
   (t!"P.O.", t!"PO"), (t!"P.O.W.'s", t!"POW's")]

/-- `whitelist/tts.tsv`, part 34. -/
def tts34 : List (Str × Str) :=
  [(t!"P&PH", t!"P and PH"), (t!"PPi", t!"PPI"), (t!"P. P.", t!"PP"), (t!"P.P.", t!"PP"),
   (t!"PPVs", t!"PPV's"), (t!"PPy", t!"PPY"), (t!"P. R.", t!"PR"), (t!"P.R.", t!"PR"),
   (t!"P. s", t!"P's"), (t!"P.'s", t!"P's"), (t!"Ps", t!"P's"), (t!"P. S.", t!"PS"),
   (t!"P.S.", t!"PS"), (t!"PSSAs", t!"PSSA's"), (t!"pTA", t!"PTA"), (t!"PTAs", t!"PTA's"),
   (t!"Pte", t!"PTE"), (t!"PTEs", t!"PTE's"), (t!"Ptie", t!"PTIE"), (t!"PTLs", t!"PTL's"),
   (t!"Ptol", t!"PTOL"), (t!"P. T.", t!"PT"), (t!"P.T.", t!"PT"), (t!"PTTs", t!"PTT's"),
   (t!"P'Twa", t!"PTWA"), (t!"Puiu", t!"PUIU"), (t!"Pul", t!"PUL"), (t!"PVAs", t!"PVA's"),
   (t!"PvdA", t!"PVDA"), (t!"P. V.", t!"PV"), (t!"P.V.", t!"PV"), (t!"PVs", t!"PV's"),
   (t!"P&W", t!"P and W"), (t!"P. W.", t!"PW"), (t!"P.W.", t!"PW"), (t!"Pyi", t!"PYI"),
   (t!"Pyk", t!"PYK"), (t!"Pyl", t!"PYL"), (t!"PyL", t!"PYL"), (t!"P. Y.", t!"PY"),
   (t!"Pyu", t!"PYU"), (t!"Pyw", t!"PYW"), (t!"Pyx", t!"PYX"), (t!"P. Z.", t!"PZ"),
   (t!"Q. A.", t!"QA"), (t!"Q&A", t!"Q and A"), (t!"Q&A's", t!"Q and A's"),
   (t!"Q&As", t!"Q and A's"), (t!"QbA", t!"QBA"), (t!"Q.B.", t!"QB"), (t!"Q.C.", t!"QC"),
   (t!"Q. E.", t!"QE"), (t!"Q.H.", t!"QH"), (t!"Q.I.", t!"QI"), (t!"Q. J.", t!"QJ"),
   (t!"Q. N.", t!"QN"), (t!"QPOs", t!"QPO's"), (t!"Q.V.", t!"QV"), (t!"R. A.", t!"RA"),
   (t!"R.A.", t!"RA"), (t!"R&A", t!"R and A"), (t!"R&AW", t!"R and AW"), (t!"RbAg", t!"RBAG"),
   (t!"RBCs", t!"RBC's")]

/-- `whitelist/tts.tsv`, part 35. -/
def tts35 : List (Str × Str) :=
  [(t!"RBIs", t!"RBI's"), (t!"R&B", t!"R and B"), (t!"R. B.", t!"RB"), (t!"R.B.", t!"RB"),
   (t!"R&C", t!"R and C"), (t!"R. C.", t!"RC"), (t!"R.C.", t!"RC"), (t!"RCTs", t!"RCT's"),
   (t!"RdE", t!"RDE"), (t!"R&D", t!"R and D"), (t!"R. D.", t!"RD"), (t!"R.D.", t!"RD"),
   (t!"R.E.M.'s", t!"REM's"), (t!"REPLs", t!"REPL's"), (t!"R. E.", t!"RE"), (t!"R.E.", t!"RE"),
   (t!"R. F.", t!"RF"), (t!"R.F.", t!"RF"), (t!"R&G", t!"R and G"), (t!"R. G.", t!"RG"),
   (t!"R.G.", t!"RG"), (t!"RHIBs", t!"RHIB's"), (t!"Rhiw", t!"RHIW"), (t!"RhoG", t!"RHOG"),
   (t!"Rho's", t!"RHO's"), (t!"R. H.", t!"RH"), (t!"R.H.", t!"RH"), (t!"R&I", t!"R and I"),
   (t!"R. I.", t!"RI"), (t!"R.I.", t!"RI"), (t!"Riu", t!"RIU"), (t!"Rivu", t!"RIVU"),
   (t!"Rixt", t!"RIXT"), (t!"R. J.", t!"RJ"), (t!"R.J.", t!"RJ"), (t!"R. K.", t!"RK"),
   (t!"R.K.", t!"RK"), (t!"R. L.", t!"RL"), (t!"R.L.", t!"RL"), (t!"RMDs", t!"RMD's"),
   (t!"RMLs", t!"RML's"), (t!"R. M.", t!"RM"), (t!"R.M.", t!"RM"), (t!"RMSDs", t!"RMSD's"),
   (t!"RMs", t!"RM's"), (t!"RNAs", t!"RNA's"), (t!"Rnet", t!"RNET"), (t!"Rnic", t!"RNIC"),
   (t!"RNNs", t!"RNN's"), (t!"RNPs", t!"RNP's"), (t!"R. N.", t!"RN"), (t!"R.N.", t!"RN"),
   (t!"rOmpB", t!"ROMPB"), (t!"Rooi", t!"ROOI"), (t!"R. O.", t!"RO"), (t!"R.O.", t!"RO"),
   (t!"ROVs", t!"ROV's"), (t!"Roxb", t!"ROXB"), (t!"Roxx", t!"ROXX"), (t!"RP&C", t!"RP and C"),
   (t!"Rpe", t!"RPE"), (t!"RPGs", t!"RPG's"), (t!"R. P.", t!"RP"), (t!"R.P.", t!"RP")]

/-- `whitelist/tts.tsv`, part 36. -/
def tts36 : List (Str × Str) :=
  [(t!"RPs", t!"RP's"), (t!"R. Q.", t!"RQ"), (t!"R.Q.", t!"RQ"), (t!"Rreli", t!"RRELI"),
   (t!"rRNA", t!"RRNA"), (t!"rRNAs", t!"RRNA's"), (t!"R&R", t!"R and R"), (t!"R. R.", t!"RR"),
   (t!"R.R.", t!"RR"), (t!"Rsis", t!"RSI's"), (t!"RsmA", t!"RSMA"), (t!"RSpec", t!"RSPEC"),
   (t!"Rs", t!"R's"), (t!"R. S.", t!"RS"), (t!"R.S.", t!"RS"), (t!"RSu", t!"RSU"),
   (t!"RTCs", t!"RTC's"), (t!"RTEjr", t!"RTEJR"), (t!"RTeOR", t!"RTEOR"),
   (t!"RTOs", t!"RTO's"), (t!"rtPA", t!"RTPA"), (t!"R. T.", t!"RT"), (t!"R.T.", t!"RT"),
   (t!"RTVFBiH", t!"RTVFBIH"), (t!"Ruao", t!"RUAO"), (t!"Rukn", t!"RUKN"), (t!"Ruk", t!"RUK"),
   (t!"Rupf", t!"RUPF"), (t!"Rupr", t!"RUPR"), (t!"Rup", t!"RUP"), (t!"R. U.", t!"RU"),
   (t!"R.U.", t!"RU"), (t!"RutB", t!"RUTB"), (t!"Ruu", t!"RUU"), (t!"Ruwa", t!"RUWA"),
   (t!"Ruy", t!"RUY"), (t!"Ruyt", t!"RUYT"), (t!"Rvat", t!"RVAT"), (t!"Rvo", t!"RVO"),
   (t!"R. V.", t!"RV"), (t!"R.V.", t!"RV"), (t!"Rwa", t!"RWA"), (t!"RWEs", t!"RWE's"),
   (t!"R. W.", t!"RW"), (t!"R.W.", t!"RW"), (t!"Rxa", t!"RXA"), (t!"R. Z.", t!"RZ"),
   (t!"Sa'id", t!"SAID"), (t!"S. A.", t!"SA"), (t!"S.A.", t!"SA"), (t!"Saxl", t!"SAXL"),
   (t!"Sa'yo", t!"SAYO"), (t!"Sbai", t!"SBAI"), (t!"SBCs", t!"SBC's"), (t!"Sborz", t!"SBORZ"),
   (t!"S. B.", t!"SB"), (t!"S.B.", t!"SB"), (t!"Sbu", t!"SBU"), (t!"SCRs", t!"SCR's"),
   (t!"S. C.", t!"SC"), (t!"S.C.", t!"SC"), (t!"Scuf", t!"SCUF"), (t!"Scymn", t!"SCYMN"),
   (t!"SD&AE", t!"SD and AE")]

/-- `whitelist/tts.tsv`, part 37. -/
def tts37 : List (Str × Str) :=
  [(t!"Sdei", t!"SDEI"), (t!"Sde", t!"SDE"), (t!"SDG&E", t!"SDG and E"), (t!"S. D.", t!"SD"),
   (t!"S.D.", t!"SD"), (t!"SDSM&T's", t!"SDSM and T's"), (t!"Sejms", t!"SEJM's"),
   (t!"Sekl", t!"SEKL"), (t!"Sek", t!"SEK"), (t!"S. E.", t!"SE"), (t!"S.E.", t!"SE"),
   (t!"Ses", t!"SE's"), (t!"SEs", t!"SE's"), (t!"S.E.S.'s", t!"SES's"), (t!"Seyh", t!"SEYH"),
   (t!"Sfax", t!"SFAX"), (t!"SFFCo", t!"SFFCO"), (t!"S. F.", t!"SF"), (t!"S.F.", t!"SF"),
   (t!"S.F.'s", t!"SF's"), (t!"SG&A", t!"SG and A"), (t!"Sgip", t!"SGIP"), (t!"S. G.", t!"SG"),
   (t!"S.G.", t!"SG"), (t!"SGSNs", t!"SGSN's"), (t!"Sgt.", t!"sergeant"),
   (t!"S.H.I.E.L.D.'s", t!"SHIELD's"), (t!"Shma", t!"SHMA"), (t!"S. H.", t!"SH"),
   (t!"S.H.", t!"SH"), (t!"S. I.", t!"SI"), (t!"S.I.", t!"SI"), (t!"Sjon", t!"SJON"),
   (t!"S. J.", t!"SJ"), (t!"S.J.", t!"SJ"), (t!"S. K.", t!"SK"), (t!"S.K.", t!"SK"),
   (t!"S.L.A.A.'s", t!"SLAA's"), (t!"SLAs", t!"SLA's"), (t!"S&L", t!"S and L"),
   (t!"SLS&E", t!"SLS and E"), (t!"S. L.", t!"SL"), (t!"S.L.", t!"SL"), (t!"SMe", t!"SME"),
   (t!"SMEs", t!"SME's"), (t!"SmI", t!"SMI"), (t!"SMPSs", t!"SMPS's"), (t!"S&M", t!"S and M"),
   (t!"S. M.", t!"SM"), (t!"S.M.", t!"SM"), (t!"S.M.'s", t!"SM's"), (t!"SMs", t!"SMS"),
   (t!"Smyl", t!"SMYL"), (t!"SNESjr", t!"SNESJR"), (t!"SNPs", t!"SNP's"), (t!"SnSe", t!"SNSE"),
   (t!"S. N.", t!"SN"), (t!"S.N.", t!"SN"), (t!"S. O.", t!"SO"), (t!"S.O.", t!"SO"),
   (t!"Sos", t!"SO's"), (t!"Sovn", t!"SOVN"), (t!"Sov", t!"SOV"),
   (t!"S&P 500", t!"S and P five  hundred")]

/-- `whitelist/tts.tsv`, part 38. -/
def tts38 : List (Str × Str) :=
  [(t!"SPCAs", t!"SPCA's"), (t!"Spe", t!"SPE"), (t!"Spoa", t!"SPOA"), (t!"SpPIn", t!"SPPIN"),
   (t!"S&P", t!"S and P"), (t!"S. P.", t!"SP"), (t!"S.P.", t!"SP"), (t!"SPs", t!"SP's"),
   (t!"SPUs", t!"SPU's"), (t!"S. Q.", t!"SQ"), (t!"Sra", t!"SRA"), (t!"SRAs", t!"SRA's"),
   (t!"Srba", t!"SRBA"), (t!"Srbi", t!"SRBI"), (t!"SRBs", t!"SRB's"), (t!"SRGs", t!"SRG's"),
   (t!"Srhir", t!"SRHIR"), (t!"SRLGs", t!"SRLG's"), (t!"SRMs", t!"SRM's"),
   (t!"Srni", t!"SRNI"), (t!"S. R.", t!"SR"), (t!"S.R.", t!"SR"), (t!"Srul", t!"SRUL"),
   (t!"SSAs", t!"SSA's"), (t!"SSDs", t!"SSD's"), (t!"SSoSV", t!"SSOSV"),
   (t!"SSRIs", t!"SSRI's"), (t!"S&S", t!"S and S"), (t!"S. s", t!"S's"), (t!"Ss", t!"S's"),
   (t!"S. S.", t!"SS"), (t!"S.S.", t!"SS"), (t!"Ssu", t!"SSU"), (t!"Ssy", t!"SSY"),
   (t!"ST&AJ", t!"ST and AJ"), (t!"STDs", t!"STD's"), (t!"STGs", t!"STG's"),
   (t!"STIs", t!"STI's"), (t!"STi", t!"STI"), (t!"Stryj", t!"STRYJ"), (t!"S&T", t!"S and T"),
   (t!"STScI", t!"STSCI"), (t!"S. T.", t!"ST"), (t!"S.T.", t!"ST"), (t!"Suo", t!"SUO"),
   (t!"S. U.", t!"SU"), (t!"Susz", t!"SUSZ"), (t!"SUTs", t!"SUT's"), (t!"Suu", t!"SUU"),
   (t!"SUVs", t!"SUV's"), (t!"Suy", t!"SUY"), (t!"Svac", t!"SVAC"), (t!"Sve", t!"SVE"),
   (t!"SVMs", t!"SVM's"), (t!"S. V.", t!"SV"), (t!"S.V.", t!"SV"), (t!"SVTs", t!"SVT's"),
   (t!"Swe", t!"SWE"), (t!"SwRI", t!"SWRI"), (t!"S&W", t!"S and W"), (t!"S. W.", t!"SW"),
   (t!"S.W.", t!"SW"), (t!"S.X.", t!"SX"), (t!"SysML", t!"SYSML")]

/-- `whitelist/tts.tsv`, part 39. -/
def tts39 : List (Str × Str) :=
  [(t!"SysRq", t!"SYSRQ"), (t!"Sys", t!"SY's"), (t!"SysV", t!"SYSV"), (t!"S. Y.", t!"SY"),
   (t!"S.Y.", t!"SY"), (t!"SyT", t!"SYT"), (t!"Syxx", t!"SYXX"), (t!"Szasz", t!"SZASZ"),
   (t!"Szer", t!"SZER"), (t!"Szklo", t!"SZKLO"), (t!"Szlak", t!"SZLAK"),
   (t!"SzMME", t!"SZMME"), (t!"Szpir", t!"SZPIR"), (t!"S. Z.", t!"SZ"), (t!"Szu", t!"SZU"),
   (t!"Szyk", t!"SZYK"), (t!"Taf", t!"TAF"), (t!"T. A.", t!"TA"), (t!"T.A.", t!"TA"),
   (t!"T&A", t!"T and A"), (t!"TBCs", t!"TBC's"), (t!"TBMs", t!"TBM's"), (t!"T. B.", t!"TB"),
   (t!"T.B.", t!"TB"), (t!"TCiAP", t!"TCIAP"), (t!"TCKs", t!"TCK's"), (t!"T. C.", t!"TC"),
   (t!"T.C.", t!"TC"), (t!"TCUs", t!"TCU's"), (t!"TDCi", t!"TDCI"), (t!"TdIF", t!"TDIF"),
   (t!"TDs", t!"TD's"), (t!"T. D.", t!"TD"), (t!"T.D.", t!"TD"), (t!"Teatr", t!"TEATR"),
   (t!"T. E.", t!"TE"), (t!"T.E.", t!"TE"), (t!"T&F", t!"T and F"), (t!"T. F.", t!"TF"),
   (t!"T.F.", t!"TF"), (t!"T. G.", t!"TG"), (t!"T.G.", t!"TG"), (t!"TGVs", t!"TGV's"),
   (t!"Thok", t!"THOK"), (t!"ThSe", t!"THSE"), (t!"T. H.", t!"TH"), (t!"T.H.", t!"TH"),
   (t!"T.I.'s", t!"TI's"), (t!"T.I.", t!"TI"), (t!"Tiu", t!"TIU"), (t!"Tiv", t!"TIV"),
   (t!"Tiy's", t!"TIY's"), (t!"T. J.", t!"TJ"), (t!"T.J.", t!"TJ"), (t!"Tko", t!"TKO"),
   (t!"T. K.", t!"TK"), (t!"T.K.", t!"TK"), (t!"Tlas", t!"TLA's"), (t!"TlCu", t!"TLCU"),
   (t!"TLDs", t!"TLD's"), (t!"TLRs", t!"TLR's"), (t!"TLs", t!"TL's"), (t!"T. L.", t!"TL"),
   (t!"T.L.", t!"TL")]

/-- `whitelist/tts.tsv`, part 40. -/
def tts40 : List (Str × Str) :=
  [(t!"Tluk", t!"TLUK"), (t!"Tluszcz", t!"TLUSZCZ"), (t!"TMGs", t!"TMG's"),
   (t!"tmRNA", t!"TMRNA"), (t!"TMSs", t!"TMS's"), (t!"T.M.s", t!"TM's"), (t!"T. M.", t!"TM"),
   (t!"T.M.", t!"TM"), (t!"TNTAs", t!"TNTA's"), (t!"T. N.", t!"TN"), (t!"T.N.", t!"TN"),
   (t!"T.O.'s", t!"TO's"), (t!"T. O.", t!"TO"), (t!"T.O.", t!"TO"), (t!"Tou", t!"TOU"),
   (t!"ToU", t!"TOU"), (t!"tPA", t!"TPA"), (t!"T. P.", t!"TP"), (t!"T.P.", t!"TP"),
   (t!"TPVs", t!"TPV's"), (t!"T.Q.", t!"TQ"), (t!"Tra", t!"TRA"), (t!"Trbic", t!"TRBIC"),
   (t!"Trcek", t!"TRCEK"), (t!"TrkA", t!"TRKA"), (t!"Trmcic", t!"TRMCIC"),
   (t!"tRNA", t!"TRNA"), (t!"TRPs", t!"TRP's"), (t!"T. R.", t!"TR"), (t!"T.R.", t!"TR"),
   (t!"truTV", t!"TRUTV"), (t!"TruTV", t!"TRUTV"), (t!"Trve", t!"TRVE"), (t!"Tsa", t!"TSA"),
   (t!"Tsiv", t!"TSIV"), (t!"Tso", t!"TSO"), (t!"Ts", t!"T's"), (t!"T. S.", t!"TS"),
   (t!"T.S.", t!"TS"), (t!"Tsvi", t!"TSVI"), (t!"Tta", t!"TTA"), (t!"T&T", t!"T and T"),
   (t!"T. T.", t!"TT"), (t!"T.T.", t!"TT"), (t!"T'uqu", t!"TUQU"), (t!"T.U.", t!"TU"),
   (t!"Tuzk", t!"TUZK"), (t!"Tvam", t!"TVAM"), (t!"TVETs", t!"TVET's"), (t!"TVii", t!"TVII"),
   (t!"TVIn", t!"TVIN"), (t!"TVi", t!"TVI"), (t!"Tvo", t!"TVO"), (t!"TVRi", t!"TVRI"),
   (t!"TVSpy", t!"TVSPY"), (t!"TVs", t!"TV's"), (t!"tVTA", t!"TVTA"), (t!"T. V.", t!"TV"),
   (t!"T.V.", t!"TV"), (t!"Twa", t!"TWA"), (t!"Twi", t!"TWI"), (t!"TWTs", t!"TWT's"),
   (t!"T. W.", t!"TW"), (t!"T.W.", t!"TW")]

/-- `whitelist/tts.tsv`, part 41. -/
def tts41 : List (Str × Str) :=
  [(t!"TxDOT", t!"TXDOT"), (t!"T.X.", t!"TX"), (t!"Tyk", t!"TYK"), (t!"Tza'ar", t!"TZAAR"),
   (t!"Tze", t!"TZE"), (t!"Tzrif", t!"TZRIF"), (t!"Tzuh", t!"TZUH"), (t!"Tzvi", t!"TZVI"),
   (t!"Ua's", t!"UA's"), (t!"UAs", t!"UA's"), (t!"U.A.", t!"UA"), (t!"UAVs", t!"UAV's"),
   (t!"Uba", t!"UBA"), (t!"UbcM", t!"UBCM"), (t!"Ube", t!"UBE"), (t!"Ubi", t!"UBI"),
   (t!"Ucar", t!"UCAR"), (t!"Uca", t!"UCA"), (t!"Ucmak", t!"UCMAK"), (t!"Ucn", t!"UCN"),
   (t!"uCs", t!"UC's"), (t!"Uc", t!"UC"), (t!"U.C.", t!"UC"), (t!"Ucuncu", t!"UCUNCU"),
   (t!"Uczta", t!"UCZTA"), (t!"Uda", t!"UDA"), (t!"Udit", t!"UDIT"), (t!"Udny", t!"UDNY"),
   (t!"UDTs", t!"UDT's"), (t!"Ud", t!"UD"), (t!"U. D.", t!"UD"), (t!"Udu", t!"UDU"),
   (t!"Ueda's", t!"UEDA's"), (t!"Uéda", t!"UE acute DA"), (t!"U. E.", t!"UE"),
   (t!"UFOs", t!"UFO's"), (t!"Ufot", t!"UFOT"), (t!"Ufo", t!"UFO"), (t!"U. F.", t!"UF"),
   (t!"Uga", t!"UGA"), (t!"Uge", t!"UGE"), (t!"Ugni", t!"UGNI"), (t!"Ugra", t!"UGRA"),
   (t!"Ugrszke", t!"UGRSZKE"), (t!"Ug", t!"UG"), (t!"Uhha", t!"UHHA"), (t!"UHTCs", t!"UHTC's"),
   (t!"Uhud", t!"UHUD"), (t!"U.H.", t!"UH"), (t!"Uiam", t!"UIAM"), (t!"Uibh", t!"UIBH"),
   (t!"Uible", t!"UIBLE"), (t!"Uig", t!"UIG"), (t!"UiS", t!"UIS"), (t!"UiTM", t!"UITM"),
   (t!"Uit", t!"UIT"), (t!"Uiy", t!"UIY"), (t!"Ujed", t!"UJED"), (t!"Ujsag", t!"UJSAG"),
   (t!"U.J.", t!"UJ"), (t!"Uka", t!"UKA"), (t!"Ukhra", t!"UKHRA"), (t!"Ukic", t!"UKIC"),
   (t!"Uki", t!"UKI")]

/-- `whitelist/tts.tsv`, part 42. -/
def tts42 : List (Str × Str) :=
  [(t!"Ukoh", t!"UKOH"), (t!"Uko", t!"UKO"), (t!"Ukr", t!"UKR"), (t!"Ukui", t!"UKUI"),
   (t!"Uk", t!"UK"), (t!"U.K.", t!"UK"), (t!"Ukwu", t!"UKWU"), (t!"Ulic", t!"ULIC"),
   (t!"Ull", t!"ULL"), (t!"Ulms", t!"ULM's"), (t!"UlSU", t!"ULSU"), (t!"Uluj", t!"ULUJ"),
   (t!"U.L.", t!"UL"), (t!"Ulus", t!"ULU's"), (t!"Ulwa", t!"ULWA"), (t!"Ulwe", t!"ULWE"),
   (t!"Umbr", t!"UMBR"), (t!"UMe", t!"UME"), (t!"Umla", t!"UMLA"), (t!"Umme", t!"UMME"),
   (t!"Umno", t!"UMNO"), (t!"Umri", t!"UMRI"), (t!"U. M.", t!"UM"), (t!"U.M.", t!"UM"),
   (t!"Unli", t!"UNLI"), (t!"Unlu", t!"UNLU"), (t!"UNSh", t!"UNSH"), (t!"Unst", t!"UNST"),
   (t!"Uns", t!"UN's"), (t!"U.N.'s", t!"UN's"), (t!"Unt", t!"UNT"), (t!"U.N.", t!"UN"),
   (t!"Unz", t!"UNZ"), (t!"UOCl", t!"UOCL"), (t!"UofM", t!"UOFM"), (t!"Uoho", t!"UOHO"),
   (t!"UoMs", t!"UOM's"), (t!"uORF", t!"UORF"), (t!"UoW", t!"UOW"), (t!"UPBs", t!"UPB's"),
   (t!"Upd", t!"UPD"), (t!"Upf", t!"UPF"), (t!"Upir", t!"UPIR"), (t!"UPnP", t!"UPNP"),
   (t!"Uppu", t!"UPPU"), (t!"U.P.", t!"UP"), (t!"UPyD", t!"UPYD"), (t!"Urbz", t!"URBZ"),
   (t!"URCs", t!"URC's"), (t!"Urdd", t!"URDD"), (t!"Urei", t!"UREI"), (t!"Urla", t!"URLA"),
   (t!"URLhttp", t!"URLHTTP"), (t!"URLs", t!"URL's"), (t!"Usal", t!"USAL"),
   (t!"Usan", t!"USAN"), (t!".USA", t!"USA"), (t!"USAya", t!"USAYA"), (t!"USBs", t!"USB's"),
   (t!"Uscie", t!"USCIE"), (t!"U.S.C.'s", t!"USC's"), (t!"USDoE", t!"USDOE"),
   (t!"USFbA", t!"USFBA"), (t!"USF&WS", t!"USF and WS")]

/-- `whitelist/tts.tsv`, part 43. -/
def tts43 : List (Str × Str) :=
  [(t!"UShs", t!"USH's"), (t!"Usia", t!"USIA"), (t!"Uslu", t!"USLU"), (t!"Usmar", t!"USMAR"),
   (t!"Usna", t!"USNA"), (t!"Usnic", t!"USNIC"), (t!"Usoi", t!"USOI"), (t!"Usos", t!"USO's"),
   (t!"Uso", t!"USO"), (t!"USPs", t!"USP's"), (t!"U.S.'s", t!"US's"), (t!"Usti", t!"USTI"),
   (t!"Ustka", t!"USTKA"), (t!"Usui", t!"USUI"), (t!"U. S.", t!"US"), (t!"U.S.", t!"US"),
   (t!"Usut", t!"USUT"), (t!"Usvit", t!"USVIT"), (t!"Uta's", t!"UTA's"), (t!"Uta", t!"UTA"),
   (t!"Utca", t!"UTCA"), (t!"Utd's", t!"UTD's"), (t!"Utd", t!"UTD"), (t!"Utes", t!"UTE's"),
   (t!"Uth", t!"UTH"), (t!"Uti", t!"UTI"), (t!"Utne", t!"UTNE"), (t!"Utnur", t!"UTNUR"),
   (t!"Uto", t!"UTO"), (t!"Utsav", t!"UTSAV"), (t!"Utsu", t!"UTSU"), (t!"U.T.", t!"UT"),
   (t!"Utu", t!"UTU"), (t!"Utva", t!"UTVA"), (t!"Uuh", t!"UUH"), (t!"Uul", t!"UUL"),
   (t!"Uulu", t!"UULU"), (t!"Uusi", t!"UUSI"), (t!"UUs", t!"UU's"), (t!"Uuto", t!"UUTO"),
   (t!"Uvac", t!"UVAC"), (t!"Uvea", t!"UVEA"), (t!"Uvo", t!"UVO"), (t!"U.V.", t!"UV"),
   (t!"Uwasa", t!"UWASA"), (t!"UWFi", t!"UWFI"), (t!"V. A.", t!"VA"), (t!"V.A.", t!"VA"),
   (t!"V&A", t!"V and A"), (t!"Vav", t!"VAV"), (t!"Vay", t!"VAY"), (t!"V. B.", t!"VB"),
   (t!"V.B.", t!"VB"), (t!"VCDs", t!"VCD's"), (t!"VCRs", t!"VCR's"), (t!"VCSELs", t!"VCSEL's"),
   (t!"VCs", t!"VC's"), (t!"VCTs", t!"VCT's"), (t!"V. C.", t!"VC"), (t!"V.C.", t!"VC"),
   (t!"Vda", t!"VDA"), (t!"VDCs", t!"VDC's"), (t!"V. D.", t!"VD"), (t!"V.D.", t!"VD")]

/-- `whitelist/tts.tsv`, part 44. -/
def tts44 : List (Str × Str) :=
  [(t!"Vez", t!"VEZ"), (t!"V. F.", t!"VF"), (t!"V.F.", t!"VF"), (t!"V'Ger", t!"VGER"),
   (t!"VGo", t!"VGO"), (t!"VGSCs", t!"VGSC's"), (t!"VGSoM", t!"VGSOM"), (t!"V. G.", t!"VG"),
   (t!"V.G.", t!"VG"), (t!"V. H.", t!"VH"), (t!"V.I.C.'s", t!"VIC's"), (t!"Vict", t!"VICT"),
   (t!"Vij", t!"VIJ"), (t!"V.I.P.s", t!"VIP's"), (t!"VIPs", t!"VIP's"), (t!"V. I.", t!"VI"),
   (t!"V.I.", t!"VI"), (t!"VJs", t!"VJ's"), (t!"V. J.", t!"VJ"), (t!"V.J.", t!"VJ"),
   (t!"V. K.", t!"VK"), (t!"V.K.", t!"VK"), (t!"Vlah", t!"VLAH"), (t!"VLCCs", t!"VLCC's"),
   (t!"Vlijt", t!"VLIJT"), (t!"V. L.", t!"VL"), (t!"V.L.", t!"VL"), (t!"VMAs", t!"VMA's"),
   (t!"V. M.", t!"VM"), (t!"V.M.", t!"VM"), (t!"V. N.", t!"VN"), (t!"V.N.", t!"VN"),
   (t!"V.O.", t!"VO"), (t!"Vov", t!"VOV"), (t!"Voz", t!"VOZ"), (t!"VPNs", t!"VPN's"),
   (t!"V. P.", t!"VP"), (t!"V.P.", t!"VP"), (t!"Vrba", t!"VRBA"), (t!"Vrbuv", t!"VRBUV"),
   (t!"Vrej", t!"VREJ"), (t!"Vrin", t!"VRIN"), (t!"Vrouw", t!"VROUW"), (t!"Vrsac", t!"VRSAC"),
   (t!"Vrtis", t!"VRTI's"), (t!"V&R", t!"V and R"), (t!"V. R.", t!"VR"), (t!"V.R.", t!"VR"),
   (t!"VSANs", t!"VSAN's"), (t!"VSATs", t!"VSAT's"), (t!"Vsekh", t!"VSEKH"),
   (t!"VSPs", t!"VSP's"), (t!"VTE", t!"VT eL"), (t!"Vtic", t!"VTIC"), (t!"VTi", t!"VTI"),
   (t!"V&T's", t!"V and T's"), (t!"V&T", t!"V and T"), (t!"V.T.", t!"VT"),
   (t!"Vuur", t!"VUUR"), (t!"VVIPs", t!"VVIP's"), (t!"V. V.", t!"VV"), (t!"V.V.", t!"VV"),
   (t!"VWs", t!"VW's"), (t!"Vyg", t!"VYG")]

/-- `whitelist/tts.tsv`, part 45. -/
def tts45 : List (Str × Str) :=
  [(t!"V. Z.", t!"VZ"), (t!"Waay", t!"WAAY"), (t!"Wa'il", t!"WAIL"), (t!"Wakf", t!"WAKF"),
   (t!"Waqt", t!"WAQT"), (t!"Wasl", t!"WASL"), (t!"Watfa", t!"WATFA"), (t!"Wau", t!"WAU"),
   (t!"W. A.", t!"WA"), (t!"W.A.", t!"WA"), (t!"Waza", t!"WAZA"), (t!"WBs", t!"WB's"),
   (t!"W. B.", t!"WB"), (t!"W.B.", t!"WB"), (t!"W&CBR", t!"W and CBR"), (t!"W. C.", t!"WC"),
   (t!"W.C.", t!"WC"), (t!"W. D.", t!"WD"), (t!"W.D.", t!"WD"), (t!"W. E.", t!"WE"),
   (t!"W.E.", t!"WE"), (t!"WF&NW", t!"WF and NW"), (t!"W&F", t!"W and F"), (t!"W. F.", t!"WF"),
   (t!"W.F.", t!"WF"), (t!"W. G.", t!"WG"), (t!"W.G.", t!"WG"), (t!"W&H", t!"W and H"),
   (t!"W. H.", t!"WH"), (t!"W.H.", t!"WH"), (t!"Whyld", t!"WHYLD"), (t!"Wica", t!"WICA"),
   (t!"Wif", t!"WIF"), (t!"Wijk", t!"WIJK"), (t!"Wiwa", t!"WIWA"), (t!"W. I.", t!"WI"),
   (t!"W&J's", t!"W and J's"), (t!"W&J", t!"W and J"), (t!"W. J.", t!"WJ"), (t!"W.J.", t!"WJ"),
   (t!"W. K.", t!"WK"), (t!"W.K.", t!"WK"), (t!"W&LE", t!"W and LE"), (t!"Wley", t!"WLEY"),
   (t!"W. L.", t!"WL"), (t!"W.L.", t!"WL"), (t!"W&M", t!"W and M"), (t!"W. M.", t!"WM"),
   (t!"W.M.", t!"WM"), (t!"W. N.", t!"WN"), (t!"W.N.", t!"WN"), (t!"W&OD", t!"W and OD"),
   (t!"Worh", t!"WORH"), (t!"W. O.", t!"WO"), (t!"W.O.", t!"WO"), (t!"W. P.", t!"WP"),
   (t!"W.P.", t!"WP"), (t!"Wrec", t!"WREC"), (t!"W. R.", t!"WR"), (t!"W.R.", t!"WR"),
   (t!"W. S.", t!"WS"), (t!"W.S.", t!"WS"), (t!"WTs", t!"WT's"), (t!"WTTs", t!"WTT's")]

/-- `whitelist/tts.tsv`, part 46. -/
def tts46 : List (Str × Str) :=
  [(t!"W. T.", t!"WT"), (t!"W.T.", t!"WT"), (t!"WUAs", t!"WUA's"), (t!"Wudl", t!"WUDL"),
   (t!"Wuhr", t!"WUHR"), (t!"Wuhu", t!"WUHU"), (t!"Wu's", t!"WU's"), (t!"W. U.", t!"WU"),
   (t!"Wuz", t!"WUZ"), (t!"WVa", t!"WVA"), (t!"W. V.", t!"WV"), (t!"W.V.", t!"WV"),
   (t!"Wwe", t!"WWE"), (t!"W. W.", t!"WW"), (t!"W.W.", t!"WW"), (t!"W.Y.", t!"WY"),
   (t!"W. Z.", t!"WZ"), (t!"Xbra", t!"XBRA"), (t!"xCo", t!"XCO"), (t!"X. C.", t!"XC"),
   (t!"XDRs", t!"XDR's"), (t!"X. D.", t!"XD"), (t!"Xfce", t!"XFCE"), (t!"X.F.", t!"XF"),
   (t!"X. H.", t!"XH"), (t!"X.M.", t!"XM"), (t!"xO", t!"XO"), (t!"X.O.", t!"XO"),
   (t!"XPe", t!"XPE"), (t!"X.Q.", t!"XQ"), (t!"XSi", t!"XSI"), (t!"XTwas", t!"XTWA's"),
   (t!"X. W.", t!"XW"), (t!"xyZ", t!"XYZ"), (t!"Y. A.", t!"YA"), (t!"Y.A.", t!"YA"),
   (t!"Y. B.", t!"YB"), (t!"Y.B.", t!"YB"), (t!"Y. C.", t!"YC"), (t!"Y.C.", t!"YC"),
   (t!"Ydby", t!"YDBY"), (t!"Yde", t!"YDE"), (t!"YdiB", t!"YDIB"), (t!"Y. D.", t!"YD"),
   (t!"Y.D.", t!"YD"), (t!"Y.E.", t!"YE"), (t!"YFCs", t!"YFC's"), (t!"YF&R", t!"YF and R"),
   (t!"Y. G.", t!"YG"), (t!"Y.G.", t!"YG"), (t!"Y. H.", t!"YH"), (t!"Y. I.", t!"YI"),
   (t!"Y.I.", t!"YI"), (t!"Y. J.", t!"YJ"), (t!"Ykt", t!"YKT"), (t!"Y. K.", t!"YK"),
   (t!"Y.K.", t!"YK"), (t!"Yle", t!"YLE"), (t!"Y. L.", t!"YL"), (t!"Ymke", t!"YMKE"),
   (t!"Y. M.", t!"YM"), (t!"Yndi", t!"YNDI"), (t!"Yngve", t!"YNGVE"), (t!"Ynis", t!"YNI's")]

/-- `whitelist/tts.tsv`, part 47. -/
def tts47 : List (Str × Str) :=
  [(t!"Yn", t!"YN"), (t!"Y. N.", t!"YN"), (t!"Y.N.", t!"YN"), (t!"Y.O.", t!"YO"),
   (t!"Y.P.", t!"YP"), (t!"Y. Q.", t!"YQ"), (t!"Yra", t!"YRA"), (t!"Y&R", t!"Y and R"),
   (t!"YSK'da", t!"YSKDA"), (t!"YSK'ya", t!"YSKYA"), (t!"Ys", t!"Y's"), (t!"Y.S.", t!"YS"),
   (t!"Ytre", t!"YTRE"), (t!"Y&T", t!"Y and T"), (t!"Y. T.", t!"YT"), (t!"Y.T.", t!"YT"),
   (t!"Y. V.", t!"YV"), (t!"Y. W.", t!"YW"), (t!"Y.Y.", t!"YY"), (t!"Z. A.", t!"ZA"),
   (t!"Z.A.", t!"ZA"), (t!"Zdar", t!"ZDAR"), (t!"Z.G.", t!"ZG"), (t!"Z. H.", t!"ZH"),
   (t!"Z.H.", t!"ZH"), (t!"Zij", t!"ZIJ"), (t!"Z. I.", t!"ZI"), (t!"Z. J.", t!"ZJ"),
   (t!"Z.K.", t!"ZK"), (t!"Z.L.", t!"ZL"), (t!"Z.M.", t!"ZM"), (t!"ZnO", t!"ZNO"),
   (t!"Zpav", t!"ZPAV"), (t!"Z.P.", t!"ZP"), (t!"ZrI", t!"ZRI"), (t!"Zsuzsa", t!"ZSUZSA"),
   (t!"Z.W.", t!"ZW"), (t!"Z.X.", t!"ZX"), (t!"Z. Y.", t!"ZY"), (t!"Z.Y.", t!"ZY"),
   (t!"Z. Z.", t!"ZZ"), (t!"Z.Z.", t!"ZZ")]

/-- `whitelist/tts.tsv`. -/
def tts : List (Str × Str) :=
  tts0 ++
  tts1 ++
  tts2 ++
  tts3 ++
  tts4 ++
  tts5 ++
  tts6 ++
  tts7 ++
  tts8 ++
  tts9 ++
  tts10 ++
  tts11 ++
  tts12 ++
  tts13 ++
  tts14 ++
  tts15 ++
  tts16 ++
  tts17 ++
  tts18 ++
  tts19 ++
  tts20 ++
  tts21 ++
  tts22 ++
  tts23 ++
  tts24 ++
  tts25 ++
  tts26 ++
  tts27 ++
  tts28 ++
  tts29 ++
  tts30 ++
  tts31 ++
  tts32 ++
  tts33 ++
  tts34 ++
  tts35 ++
  tts36 ++
  tts37 ++
  tts38 ++
  tts39 ++
  tts40 ++
  tts41 ++
  tts42 ++
  tts43 ++
  tts44 ++
  tts45 ++
  tts46 ++
  tts47

end Verif.EnTn
