import Verif.Wfst.Processor

/-
Data tables of /repo/tn/english/data, written by tools/mkdata.py from the .tsv files.
-/

namespace Verif.EnTn

open Verif.Wfst

/-- `roman/male.tsv`, part 0. -/
def maleNames0 : List Str :=
  [t!"Aamir", t!"Aaron", t!"Abbey", t!"Abbie", t!"Abbot", t!"Abbott", t!"Abby", t!"Abdel",
   t!"Abdul", t!"Abdulkarim", t!"Abdullah", t!"Abe", t!"Abel", t!"Abelard", t!"Abner",
   t!"Abraham", t!"Abram", t!"Ace", t!"Adair", t!"Adam", t!"Adams", t!"Addie", t!"Adger",
   t!"Aditya", t!"Adlai", t!"Adnan", t!"Adolf", t!"Adolfo", t!"Adolph", t!"Adolphe",
   t!"Adolpho", t!"Adolphus", t!"Adrian", t!"Adrick", t!"Adrien", t!"Agamemnon", t!"Aguinaldo",
   t!"Aguste", t!"Agustin", t!"Aharon", t!"Ahmad", t!"Ahmed", t!"Ahmet", t!"Ajai", t!"Ajay",
   t!"Al", t!"Alaa", t!"Alain", t!"Alan", t!"Alasdair", t!"Alastair", t!"Albatros", t!"Albert",
   t!"Alberto", t!"Albrecht", t!"Alden", t!"Aldis", t!"Aldo", t!"Aldric", t!"Aldrich",
   t!"Aldus", t!"Aldwin", t!"Alec", t!"Aleck"]

/-- `roman/male.tsv`, part 1. -/
def maleNames1 : List Str :=
  [t!"Alejandro", t!"Aleks", t!"Aleksandrs", t!"Alessandro", t!"Alex", t!"Alexander",
   t!"Alexei", t!"Alexis", t!"Alf", t!"Alfie", t!"Alfonse", t!"Alfonso", t!"Alfonzo",
   t!"Alford", t!"Alfred", t!"Alfredo", t!"Algernon", t!"Ali", t!"Alic", t!"Alister", t!"Alix",
   t!"Allah", t!"Allan", t!"Allen", t!"Alley", t!"Allie", t!"Allin", t!"Allyn", t!"Alonso",
   t!"Alonzo", t!"Aloysius", t!"Alphonse", t!"Alphonso", t!"Alston", t!"Alton", t!"Alvin",
   t!"Alwin", t!"Amadeus", t!"Ambros", t!"Ambrose", t!"Ambrosi", t!"Ambrosio", t!"Ambrosius",
   t!"Amenhotep", t!"Amery", t!"Amory", t!"Amos", t!"Anatol", t!"Anatole", t!"Anatollo",
   t!"Anatoly", t!"Anders", t!"Andie", t!"Andonis", t!"Andre", t!"Andrea", t!"Andreas",
   t!"Andrej", t!"Andres", t!"Andrew", t!"Andrey", t!"Andri", t!"Andros", t!"Andrus"]

/-- `roman/male.tsv`, part 2. -/
def maleNames2 : List Str :=
  [t!"Andrzej", t!"Andy", t!"Angel", t!"Angelico", t!"Angelo", t!"Angie", t!"Angus", t!"Ansel",
   t!"Ansell", t!"Anselm", t!"Anson", t!"Anthony", t!"Antin", t!"Antoine", t!"Anton",
   t!"Antone", t!"Antoni", t!"Antonin", t!"Antonino", t!"Antonio", t!"Antonius", t!"Antony",
   t!"Anurag", t!"Apollo", t!"Apostolos", t!"Aram", t!"Archibald", t!"Archibold", t!"Archie",
   t!"Archon", t!"Archy", t!"Arel", t!"Ari", t!"Arie", t!"Ariel", t!"Aristotle", t!"Arlo",
   t!"Armand", t!"Armando", t!"Armond", t!"Armstrong", t!"Arne", t!"Arnie", t!"Arnold",
   t!"Arnoldo", t!"Aron", t!"Arron", t!"Art", t!"Arther", t!"Arthur", t!"Artie", t!"Artur",
   t!"Arturo", t!"Arvie", t!"Arvin", t!"Arvind", t!"Arvy", t!"Ash", t!"Ashby", t!"Ashish",
   t!"Ashley", t!"Ashton", t!"Aub", t!"Aube"]

/-- `roman/male.tsv`, part 3. -/
def maleNames3 : List Str :=
  [t!"Aubert", t!"Aubrey", t!"Augie", t!"Augustin", t!"Augustine", t!"Augusto", t!"Augustus",
   t!"Austen", t!"Austin", t!"Ave", t!"Averell", t!"Averil", t!"Averill", t!"Avery", t!"Avi",
   t!"Avraham", t!"Avram", t!"Avrom", t!"Axel", t!"Aylmer", t!"Aziz", t!"Bailey", t!"Bailie",
   t!"Baillie", t!"Baily", t!"Baird", t!"Baldwin", t!"Bancroft", t!"Barbabas", t!"Barclay",
   t!"Bard", t!"Barde", t!"Barn", t!"Barnabas", t!"Barnabe", t!"Barnaby", t!"Barnard",
   t!"Barnebas", t!"Barnett", t!"Barney", t!"Barnie", t!"Barny", t!"Baron", t!"Barr",
   t!"Barret", t!"Barrett", t!"Barri", t!"Barrie", t!"Barris", t!"Barron", t!"Barry", t!"Bart",
   t!"Bartel", t!"Barth", t!"Barthel", t!"Bartholemy", t!"Bartholomeo", t!"Bartholomeus",
   t!"Bartholomew", t!"Bartie", t!"Bartlet", t!"Bartlett", t!"Bartolemo", t!"Bartolomei"]

/-- `roman/male.tsv`, part 4. -/
def maleNames4 : List Str :=
  [t!"Bartolomeo", t!"Barton", t!"Barty", t!"Bary", t!"Basil", t!"Batholomew", t!"Baxter",
   t!"Bay", t!"Bayard", t!"Beale", t!"Bealle", t!"Bear", t!"Bearnard", t!"Beau", t!"Beaufort",
   t!"Beauregard", t!"Beck", t!"Bela", t!"Ben", t!"Benedict", t!"Bengt", t!"Benito",
   t!"Benjamen", t!"Benjamin", t!"Benji", t!"Benjie", t!"Benjy", t!"Benn", t!"Bennet",
   t!"Bennett", t!"Bennie", t!"Benny", t!"Benson", t!"Bentley", t!"Benton", t!"Beowulf",
   t!"Berchtold", t!"Berk", t!"Berke", t!"Berkeley", t!"Berkie", t!"Berkley", t!"Bernard",
   t!"Bernardo", t!"Bernd", t!"Bernhard", t!"Bernie", t!"Bert", t!"Bertie", t!"Bertram",
   t!"Bertrand", t!"Bharat", t!"Biff", t!"Bill", t!"Billie", t!"Billy", t!"Bing", t!"Binky",
   t!"Bishop", t!"Bjorn", t!"Bjorne", t!"Blaine", t!"Blair", t!"Blake"]

/-- `roman/male.tsv`, part 5. -/
def maleNames5 : List Str :=
  [t!"Blare", t!"Blayne", t!"Bo", t!"Bob", t!"Bobbie", t!"Bobby", t!"Bogart", t!"Bogdan",
   t!"Boniface", t!"Boris", t!"Boyce", t!"Boyd", t!"Brad", t!"Braden", t!"Bradford",
   t!"Bradley", t!"Bradly", t!"Brady", t!"Brandon", t!"Brandy", t!"Brant", t!"Brendan",
   t!"Brent", t!"Bret", t!"Brett", t!"Brewer", t!"Brewster", t!"Brian", t!"Brice", t!"Briggs",
   t!"Brinkley", t!"Britt", t!"Brock", t!"Broddie", t!"Broddy", t!"Broderic", t!"Broderick",
   t!"Brodie", t!"Brody", t!"Bronson", t!"Brook", t!"Brooke", t!"Brooks", t!"Bruce", t!"Bruno",
   t!"Bryan", t!"Bryant", t!"Bryce", t!"Bryn", t!"Bryon", t!"Bubba", t!"Buck", t!"Bucky",
   t!"Bud", t!"Buddy", t!"Burgess", t!"Burke", t!"Burl", t!"Burnaby", t!"Burt", t!"Burton",
   t!"Buster", t!"Butch", t!"Butler"]

/-- `roman/male.tsv`, part 6. -/
def maleNames6 : List Str :=
  [t!"Byram", t!"Byron", t!"Caesar", t!"Cain", t!"Cal", t!"Caldwell", t!"Caleb", t!"Calhoun",
   t!"Calvin", t!"Cam", t!"Cameron", t!"Cammy", t!"Carey", t!"Carl", t!"Carleigh", t!"Carlie",
   t!"Carlin", t!"Carlo", t!"Carlos", t!"Carlton", t!"Carlyle", t!"Carmine", t!"Carroll",
   t!"Carson", t!"Carsten", t!"Carter", t!"Cary", t!"Caryl", t!"Case", t!"Casey", t!"Caspar",
   t!"Casper", t!"Cass", t!"Cat", t!"Cecil", t!"Cesar", t!"Chad", t!"Chadd", t!"Chaddie",
   t!"Chaddy", t!"Chadwick", t!"Chaim", t!"Chalmers", t!"Chan", t!"Chance", t!"Chancey",
   t!"Chanderjit", t!"Chandler", t!"Chane", t!"Chariot", t!"Charles", t!"Charleton",
   t!"Charley", t!"Charlie", t!"Charlton", t!"Chas", t!"Chase", t!"Chaunce", t!"Chauncey",
   t!"Che", t!"Chelton", t!"Chen", t!"Chester", t!"Cheston"]

/-- `roman/male.tsv`, part 7. -/
def maleNames7 : List Str :=
  [t!"Chet", t!"Chev", t!"Chevalier", t!"Chevy", t!"Chip", t!"Chris", t!"Chrissy", t!"Christ",
   t!"Christian", t!"Christiano", t!"Christie", t!"Christof", t!"Christofer", t!"Christoph",
   t!"Christophe", t!"Christopher", t!"Christorpher", t!"Christos", t!"Christy", t!"Chrisy",
   t!"Chuck", t!"Churchill", t!"Clair", t!"Claire", t!"Clancy", t!"Clarance", t!"Clare",
   t!"Clarence", t!"Clark", t!"Clarke", t!"Claude", t!"Claudio", t!"Claudius", t!"Claus",
   t!"Clay", t!"Clayborn", t!"Clayborne", t!"Claybourne", t!"Clayton", t!"Cleland", t!"Clem",
   t!"Clemens", t!"Clement", t!"Clemente", t!"Clemmie", t!"Cletus", t!"Cleveland", t!"Cliff",
   t!"Clifford", t!"Clifton", t!"Clint", t!"Clinten", t!"Clinton", t!"Clive", t!"Clyde",
   t!"Cob", t!"Cobb", t!"Cobbie", t!"Cobby", t!"Cody", t!"Colbert", t!"Cole", t!"Coleman",
   t!"Colin"]

/-- `roman/male.tsv`, part 8. -/
def maleNames8 : List Str :=
  [t!"Collin", t!"Collins", t!"Conan", t!"Connie", t!"Connolly", t!"Connor", t!"Conrad",
   t!"Conroy", t!"Constantin", t!"Constantine", t!"Constantinos", t!"Conway", t!"Cooper",
   t!"Corbin", t!"Corby", t!"Corey", t!"Corky", t!"Cornelius", t!"Cornellis", t!"Corrie",
   t!"Cortese", t!"Corwin", t!"Cory", t!"Cosmo", t!"Costa", t!"Courtney", t!"Craig",
   t!"Crawford", t!"Creighton", t!"Cris", t!"Cristopher", t!"Curt", t!"Curtice", t!"Curtis",
   t!"Cy", t!"Cyril", t!"Cyrill", t!"Cyrille", t!"Cyrillus", t!"Cyrus", t!"Dabney", t!"Daffy",
   t!"Dale", t!"Dallas", t!"Dalton", t!"Damian", t!"Damien", t!"Damon", t!"Dan", t!"Dana",
   t!"Dane", t!"Dani", t!"Danie", t!"Daniel", t!"Dannie", t!"Danny", t!"Dante", t!"Darby",
   t!"Darcy", t!"Daren", t!"Darian", t!"Darien", t!"Darin", t!"Dario"]

/-- `roman/male.tsv`, part 9. -/
def maleNames9 : List Str :=
  [t!"Darius", t!"Darrel", t!"Darrell", t!"Darren", t!"Darrick", t!"Darrin", t!"Darryl",
   t!"Darth", t!"Darwin", t!"Daryl", t!"Daryle", t!"Dave", t!"Davey", t!"David", t!"Davidde",
   t!"Davide", t!"Davidson", t!"Davie", t!"Davin", t!"Davis", t!"Davon", t!"Davoud", t!"Davy",
   t!"Dawson", t!"Dean", t!"Deane", t!"Del", t!"Delbert", t!"Dell", t!"Delmar", t!"Demetre",
   t!"Demetri", t!"Demetris", t!"Demetrius", t!"Demosthenis", t!"Denis", t!"Dennie",
   t!"Dennis", t!"Denny", t!"Derby", t!"Derek", t!"Derick", t!"Derk", t!"Derrek", t!"Derrick",
   t!"Derrin", t!"Derrol", t!"Derron", t!"Deryl", t!"Desmond", t!"Desmund", t!"Devin",
   t!"Devon", t!"Dewey", t!"Dewitt", t!"Dexter", t!"Dick", t!"Dickey", t!"Dickie", t!"Diego",
   t!"Dieter", t!"Dietrich", t!"Dillon", t!"Dimitri"]

/-- `roman/male.tsv`, part 10. -/
def maleNames10 : List Str :=
  [t!"Dimitrios", t!"Dimitris", t!"Dimitrou", t!"Dimitry", t!"Dino", t!"Dion", t!"Dionis",
   t!"Dionysus", t!"Dirk", t!"Dmitri", t!"Dom", t!"Domenic", t!"Domenico", t!"Dominic",
   t!"Dominick", t!"Dominique", t!"Don", t!"Donal", t!"Donald", t!"Donn", t!"Donnie",
   t!"Donny", t!"Donovan", t!"Dorian", t!"Dory", t!"Doug", t!"Douggie", t!"Dougie",
   t!"Douglas", t!"Douglass", t!"Douglis", t!"Dov", t!"Doyle", t!"Drake", t!"Drew", t!"Dru",
   t!"Dryke", t!"Duane", t!"Dudley", t!"Duffie", t!"Duffy", t!"Dugan", t!"Duke", t!"Dunc",
   t!"Duncan", t!"Dunstan", t!"Durand", t!"Durant", t!"Durante", t!"Durward", t!"Dustin",
   t!"Dwain", t!"Dwaine", t!"Dwane", t!"Dwayne", t!"Dwight", t!"Dylan", t!"Dyson", t!"Earl",
   t!"Earle", t!"Easton", t!"Eben", t!"Ebeneser", t!"Ebenezer"]

/-- `roman/male.tsv`, part 11. -/
def maleNames11 : List Str :=
  [t!"Eberhard", t!"Ed", t!"Eddie", t!"Eddy", t!"Edgar", t!"Edgardo", t!"Edie", t!"Edmond",
   t!"Edmund", t!"Edouard", t!"Edsel", t!"Eduard", t!"Eduardo", t!"Edward", t!"Edwin",
   t!"Efram", t!"Egbert", t!"Ehud", t!"Elbert", t!"Elden", t!"Eldon", t!"Eli", t!"Elias",
   t!"Elihu", t!"Elijah", t!"Eliot", t!"Eliott", t!"Elisha", t!"Elliot", t!"Elliott",
   t!"Ellis", t!"Ellsworth", t!"Ellwood", t!"Elmer", t!"Elmore", t!"Elnar", t!"Elric",
   t!"Elroy", t!"Elton", t!"Elvin", t!"Elvis", t!"Elwin", t!"Elwood", t!"Elwyn", t!"Ely",
   t!"Emanuel", t!"Emerson", t!"Emery", t!"Emil", t!"Emile", t!"Emilio", t!"Emmanuel",
   t!"Emmery", t!"Emmet", t!"Emmett", t!"Emmit", t!"Emmott", t!"Emmy", t!"Emory", t!"Ender",
   t!"Engelbart", t!"Engelbert", t!"Englebart", t!"Englebert"]

/-- `roman/male.tsv`, part 12. -/
def maleNames12 : List Str :=
  [t!"Enoch", t!"Enrico", t!"Enrique", t!"Ephraim", t!"Ephram", t!"Ephrayim", t!"Ephrem",
   t!"Er", t!"Erasmus", t!"Erastus", t!"Erek", t!"Erhard", t!"Erhart", t!"Eric", t!"Erich",
   t!"Erick", t!"Erik", t!"Erin", t!"Erl", t!"Ernest", t!"Ernesto", t!"Ernie", t!"Ernst",
   t!"Erny", t!"Errol", t!"Ervin", t!"Erwin", t!"Esau", t!"Esme", t!"Esteban", t!"Ethan",
   t!"Ethelbert", t!"Ethelred", t!"Etienne", t!"Euclid", t!"Eugen", t!"Eugene", t!"Eustace",
   t!"Ev", t!"Evan", t!"Evelyn", t!"Everard", t!"Everett", t!"Ewan", t!"Ewart", t!"Ez",
   t!"Ezechiel", t!"Ezekiel", t!"Ezra", t!"Fabian", t!"Fabio", t!"Fairfax", t!"Farley",
   t!"Fazeel", t!"Federico", t!"Felice", t!"Felicio", t!"Felipe", t!"Felix", t!"Ferd",
   t!"Ferdie", t!"Ferdinand", t!"Ferdy", t!"Fergus"]

/-- `roman/male.tsv`, part 13. -/
def maleNames13 : List Str :=
  [t!"Ferguson", t!"Ferinand", t!"Fernando", t!"Fidel", t!"Filbert", t!"Filip", t!"Filipe",
   t!"Filmore", t!"Finley", t!"Finn", t!"Fitz", t!"Fitzgerald", t!"Flem", t!"Fleming",
   t!"Flemming", t!"Fletch", t!"Fletcher", t!"Flin", t!"Flinn", t!"Flint", t!"Flipper",
   t!"Florian", t!"Floyd", t!"Flynn", t!"Fons", t!"Fonsie", t!"Fonz", t!"Fonzie", t!"Forbes",
   t!"Ford", t!"Forest", t!"Forester", t!"Forrest", t!"Forrester", t!"Forster", t!"Foster",
   t!"Fowler", t!"Fox", t!"Fran", t!"Francesco", t!"Francis", t!"Francisco", t!"Francois",
   t!"Frank", t!"Frankie", t!"Franklin", t!"Franklyn", t!"Franky", t!"Frans", t!"Franz",
   t!"Fraser", t!"Frazier", t!"Fred", t!"Freddie", t!"Freddy", t!"Frederic", t!"Frederich",
   t!"Frederick", t!"Frederico", t!"Frederik", t!"Fredric", t!"Fredrick", t!"Freeman",
   t!"Freemon"]

/-- `roman/male.tsv`, part 14. -/
def maleNames14 : List Str :=
  [t!"Fremont", t!"French", t!"Friedric", t!"Friedrich", t!"Friedrick", t!"Fritz", t!"Fulton",
   t!"Fyodor", t!"Gabe", t!"Gabriel", t!"Gabriele", t!"Gabriell", t!"Gabriello", t!"Gail",
   t!"Gale", t!"Galen", t!"Gallagher", t!"Gamaliel", t!"Garcia", t!"Garcon", t!"Gardener",
   t!"Gardiner", t!"Gardner", t!"Garey", t!"Garfield", t!"Garfinkel", t!"Garold", t!"Garp",
   t!"Garret", t!"Garrett", t!"Garrot", t!"Garrott", t!"Garry", t!"Garth", t!"Garv",
   t!"Garvey", t!"Garvin", t!"Garvy", t!"Garwin", t!"Garwood", t!"Gary", t!"Gaspar",
   t!"Gasper", t!"Gaston", t!"Gav", t!"Gaven", t!"Gavin", t!"Gavriel", t!"Gay", t!"Gayle",
   t!"Gearard", t!"Gene", t!"Geo", t!"Geof", t!"Geoff", t!"Geoffrey", t!"Geoffry", t!"Georg",
   t!"George", t!"Georges", t!"Georgia", t!"Georgie", t!"Georgy", t!"Gerald"]

/-- `roman/male.tsv`, part 15. -/
def maleNames15 : List Str :=
  [t!"Geraldo", t!"Gerard", t!"Gere", t!"Gerhard", t!"Gerhardt", t!"Geri", t!"Germaine",
   t!"Gerold", t!"Gerome", t!"Gerrard", t!"Gerri", t!"Gerrit", t!"Gerry", t!"Gershom",
   t!"Gershon", t!"Giacomo", t!"Gian", t!"Giancarlo", t!"Giavani", t!"Gibb", t!"Gideon",
   t!"Giff", t!"Giffard", t!"Giffer", t!"Giffie", t!"Gifford", t!"Giffy", t!"Gil", t!"Gilbert",
   t!"Gilberto", t!"Gilburt", t!"Giles", t!"Gill", t!"Gilles", t!"Ginger", t!"Gino",
   t!"Giordano", t!"Giorgi", t!"Giorgio", t!"Giovanne", t!"Giovanni", t!"Giraldo", t!"Giraud",
   t!"Giuseppe", t!"Glen", t!"Glenn", t!"Glynn", t!"Godard", t!"Godart", t!"Goddard",
   t!"Goddart", t!"Godfree", t!"Godfrey", t!"Godfry", t!"Godwin", t!"Gomer", t!"Gonzales",
   t!"Gonzalo", t!"Goober", t!"Goose", t!"Gordan", t!"Gordie", t!"Gordon", t!"Grace"]

/-- `roman/male.tsv`, part 16. -/
def maleNames16 : List Str :=
  [t!"Grady", t!"Graehme", t!"Graeme", t!"Graham", t!"Graig", t!"Grant", t!"Granville",
   t!"Greg", t!"Gregg", t!"Greggory", t!"Gregor", t!"Gregorio", t!"Gregory", t!"Gretchen",
   t!"Griff", t!"Griffin", t!"Griffith", t!"Griswold", t!"Grove", t!"Grover", t!"Guido",
   t!"Guillaume", t!"Guillermo", t!"Gunner", t!"Gunter", t!"Gunther", t!"Gus", t!"Gustaf",
   t!"Gustav", t!"Gustave", t!"Gustavo", t!"Gustavus", t!"Guthrey", t!"Guthrie", t!"Guthry",
   t!"Guy", t!"Hadleigh", t!"Hadley", t!"Hadrian", t!"Hagan", t!"Hagen", t!"Hailey",
   t!"Hakeem", t!"Hakim", t!"Hal", t!"Hale", t!"Haleigh", t!"Haley", t!"Hall", t!"Hallam",
   t!"Halvard", t!"Ham", t!"Hamel", t!"Hamid", t!"Hamil", t!"Hamilton", t!"Hamish", t!"Hamlen",
   t!"Hamlet", t!"Hamlin", t!"Hammad", t!"Hamnet", t!"Han", t!"Hanan"]

/-- `roman/male.tsv`, part 17. -/
def maleNames17 : List Str :=
  [t!"Hanford", t!"Hank", t!"Hannibal", t!"Hans", t!"Hans-Peter", t!"Hansel", t!"Hanson",
   t!"Harald", t!"Harcourt", t!"Hari", t!"Harlan", t!"Harland", t!"Harley", t!"Harlin",
   t!"Harman", t!"Harmon", t!"Harold", t!"Harris", t!"Harrison", t!"Harrold", t!"Harry",
   t!"Hart", t!"Hartley", t!"Hartwell", t!"Harv", t!"Harvard", t!"Harvey", t!"Harvie",
   t!"Harwell", t!"Hasheem", t!"Hashim", t!"Haskel", t!"Haskell", t!"Hassan", t!"Hastings",
   t!"Hasty", t!"Haven", t!"Hayden", t!"Haydon", t!"Hayes", t!"Hayward", t!"Haywood",
   t!"Hazel", t!"Heath", t!"Heathcliff", t!"Hebert", t!"Hector", t!"Heinrich", t!"Heinz",
   t!"Helmuth", t!"Henderson", t!"Hendrick", t!"Hendrik", t!"Henri", t!"Henrie", t!"Henrik",
   t!"Henrique", t!"Henry", t!"Herb", t!"Herbert", t!"Herbie", t!"Herby", t!"Hercule",
   t!"Hercules"]

/-- `roman/male.tsv`, part 18. -/
def maleNames18 : List Str :=
  [t!"Herculie", t!"Herman", t!"Hermann", t!"Hermon", t!"Hermy", t!"Hernando", t!"Herold",
   t!"Herrick", t!"Herrmann", t!"Hersch", t!"Herschel", t!"Hersh", t!"Hershel", t!"Herve",
   t!"Hervey", t!"Hew", t!"Hewe", t!"Hewet", t!"Hewett", t!"Hewie", t!"Hewitt", t!"Heywood",
   t!"Hezekiah", t!"Higgins", t!"Hilary", t!"Hilbert", t!"Hill", t!"Hillard", t!"Hillary",
   t!"Hillel", t!"Hillery", t!"Hilliard", t!"Hilton", t!"Hiralal", t!"Hiram", t!"Hiro",
   t!"Hirsch", t!"Hobart", t!"Hodge", t!"Hogan", t!"Hollis", t!"Holly", t!"Homer", t!"Horace",
   t!"Horacio", t!"Horatio", t!"Horatius", t!"Horst", t!"Howard", t!"Howie", t!"Hoyt",
   t!"Hubert", t!"Hudson", t!"Huey", t!"Hugh", t!"Hugo", t!"Humbert", t!"Humphrey", t!"Hunt",
   t!"Hunter", t!"Huntington", t!"Huntlee", t!"Huntley", t!"Hurley"]

/-- `roman/male.tsv`, part 19. -/
def maleNames19 : List Str :=
  [t!"Husain", t!"Husein", t!"Hussein", t!"Hy", t!"Hyatt", t!"Hyman", t!"Hymie", t!"Iago",
   t!"Iain", t!"Ian", t!"Ibrahim", t!"Ichabod", t!"Iggie", t!"Iggy", t!"Ignace", t!"Ignacio",
   t!"Ignacius", t!"Ignatius", t!"Ignaz", t!"Ignazio", t!"Igor", t!"Ike", t!"Ikey",
   t!"Immanuel", t!"Ingamar", t!"Ingelbert", t!"Ingemar", t!"Inglebert", t!"Ingmar",
   t!"Ingram", t!"Inigo", t!"Innocent", t!"Ira", t!"Irvin", t!"Irvine", t!"Irving", t!"Irwin",
   t!"Isa", t!"Isaac", t!"Isaak", t!"Isador", t!"Isadore", t!"Isaiah", t!"Ishmael",
   t!"Isidore", t!"Ismail", t!"Israel", t!"Istvan", t!"Ivan", t!"Ivor", t!"Izaak", t!"Izak",
   t!"Izzy", t!"Jabez", t!"Jack", t!"Jackie", t!"Jackson", t!"Jacob", t!"Jacques", t!"Jae",
   t!"Jaime", t!"Jake", t!"Jakob", t!"James"]

/-- `roman/male.tsv`, part 20. -/
def maleNames20 : List Str :=
  [t!"Jameson", t!"Jamey", t!"Jamie", t!"Jan", t!"Janos", t!"Janus", t!"Jared", t!"Jarrett",
   t!"Jarvis", t!"Jason", t!"Jasper", t!"Javier", t!"Jay", t!"Jean", t!"Jean-Christophe",
   t!"Jean-Francois", t!"Jean-Lou", t!"Jean-Luc", t!"Jean-Marc", t!"Jean-Paul",
   t!"Jean-Pierre", t!"Jeb", t!"Jed", t!"Jedediah", t!"Jef", t!"Jeff", t!"Jefferey",
   t!"Jefferson", t!"Jeffery", t!"Jeffie", t!"Jeffrey", t!"Jeffry", t!"Jefry", t!"Jehu",
   t!"Jennings", t!"Jens", t!"Jephthah", t!"Jerald", t!"Jeramie", t!"Jere", t!"Jereme",
   t!"Jeremiah", t!"Jeremias", t!"Jeremie", t!"Jeremy", t!"Jermain", t!"Jermaine",
   t!"Jermayne", t!"Jerold", t!"Jerome", t!"Jeromy", t!"Jerri", t!"Jerrie", t!"Jerrold",
   t!"Jerrome", t!"Jerry", t!"Jervis", t!"Jerzy", t!"Jess", t!"Jesse", t!"Jessee", t!"Jessey",
   t!"Jessie", t!"Jesus"]

/-- `roman/male.tsv`, part 21. -/
def maleNames21 : List Str :=
  [t!"Jeth", t!"Jethro", t!"Jim", t!"Jimbo", t!"Jimmie", t!"Jimmy", t!"Jo", t!"Joab",
   t!"Joachim", t!"Joao", t!"Joaquin", t!"Job", t!"Jock", t!"Jodi", t!"Jodie", t!"Jody",
   t!"Joe", t!"Joel", t!"Joey", t!"Johan", t!"Johann", t!"Johannes", t!"John", t!"John-David",
   t!"John-Patrick", t!"Johnathan", t!"Johnathon", t!"Johnnie", t!"Johnny", t!"Johny", t!"Jon",
   t!"Jonah", t!"Jonas", t!"Jonathan", t!"Jonathon", t!"Jonny", t!"Jordan", t!"Jordon",
   t!"Jordy", t!"Jorge", t!"Jory", t!"Jose", t!"Josef", t!"Joseph", t!"Josephus", t!"Josh",
   t!"Joshua", t!"Joshuah", t!"Josiah", t!"Jotham", t!"Juan", t!"Juanita", t!"Jud", t!"Judah",
   t!"Judas", t!"Judd", t!"Jude", t!"Judith", t!"Judson", t!"Judy", t!"Juergen", t!"Jule",
   t!"Jules", t!"Julian"]

/-- `roman/male.tsv`, part 22. -/
def maleNames22 : List Str :=
  [t!"Julie", t!"Julio", t!"Julius", t!"Justin", t!"Justis", t!"Kaiser", t!"Kaleb", t!"Kalil",
   t!"Kalle", t!"Kalman", t!"Kalvin", t!"Kam", t!"Kane", t!"Kareem", t!"Karel", t!"Karim",
   t!"Karl", t!"Karsten", t!"Kaspar", t!"Keefe", t!"Keenan", t!"Keene", t!"Keil", t!"Keith",
   t!"Kellen", t!"Kelley", t!"Kelly", t!"Kelsey", t!"Kelvin", t!"Kelwin", t!"Ken", t!"Kendal",
   t!"Kendall", t!"Kendrick", t!"Kenn", t!"Kennedy", t!"Kenneth", t!"Kenny", t!"Kent",
   t!"Kenton", t!"Kenyon", t!"Kermie", t!"Kermit", t!"Kerry", t!"Kevan", t!"Kevin", t!"Kim",
   t!"Kimball", t!"Kimmo", t!"Kin", t!"Kincaid", t!"King", t!"Kingsley", t!"Kingsly",
   t!"Kingston", t!"Kip", t!"Kirby", t!"Kirk", t!"Kit", t!"Klaus", t!"Klee", t!"Knox",
   t!"Konrad", t!"Konstantin"]

/-- `roman/male.tsv`, part 23. -/
def maleNames23 : List Str :=
  [t!"Kory", t!"Kostas", t!"Kraig", t!"Kris", t!"Krishna", t!"Kristian", t!"Kristopher",
   t!"Kristos", t!"Kurt", t!"Kurtis", t!"Kyle", t!"Laird", t!"Lamar", t!"Lambert", t!"Lamont",
   t!"Lance", t!"Lancelot", t!"Lane", t!"Langston", t!"Lanny", t!"Larry", t!"Lars",
   t!"Laurance", t!"Lauren", t!"Laurence", t!"Laurens", t!"Laurent", t!"Laurie", t!"Lawerence",
   t!"Lawrence", t!"Lawson", t!"Lawton", t!"Lay", t!"Layton", t!"Lazar", t!"Lazare",
   t!"Lazaro", t!"Lazarus", t!"Lazlo", t!"Lee", t!"Lefty", t!"Leif", t!"Leigh", t!"Leighton",
   t!"Leland", t!"Lem", t!"Lemar", t!"Lemmie", t!"Lemmy", t!"Lemuel", t!"Len", t!"Lenard",
   t!"Lennie", t!"Lenny", t!"Leo", t!"Leon", t!"Leonard", t!"Leonardo", t!"Leonerd",
   t!"Leonhard", t!"Leonid", t!"Leonidas", t!"Leopold", t!"Leroy"]

/-- `roman/male.tsv`, part 24. -/
def maleNames24 : List Str :=
  [t!"Les", t!"Lesley", t!"Leslie", t!"Lester", t!"Lev", t!"Levi", t!"Levin", t!"Levon",
   t!"Levy", t!"Lew", t!"Lewis", t!"Lex", t!"Liam", t!"Lin", t!"Lincoln", t!"Lind",
   t!"Lindsay", t!"Lindsey", t!"Lindy", t!"Linoel", t!"Linus", t!"Lion", t!"Lionel",
   t!"Lionello", t!"Llewellyn", t!"Lloyd", t!"Locke", t!"Lockwood", t!"Logan", t!"Lon",
   t!"Lonnie", t!"Lonny", t!"Loren", t!"Lorenzo", t!"Lorne", t!"Lorrie", t!"Lothar", t!"Lou",
   t!"Louie", t!"Louis", t!"Lovell", t!"Lowell", t!"Lucas", t!"Luce", t!"Lucian", t!"Luciano",
   t!"Lucien", t!"Lucio", t!"Lucius", t!"Ludvig", t!"Ludwig", t!"Luigi", t!"Luis", t!"Lukas",
   t!"Luke", t!"Luther", t!"Lyle", t!"Lyn", t!"Lyndon", t!"Lynn", t!"Mac", t!"Mace", t!"Mack",
   t!"Mackenzie"]

/-- `roman/male.tsv`, part 25. -/
def maleNames25 : List Str :=
  [t!"Maddie", t!"Maddy", t!"Madison", t!"Magnum", t!"Magnus", t!"Mahesh", t!"Mahmoud",
   t!"Mahmud", t!"Maison", t!"Major", t!"Malcolm", t!"Manfred", t!"Manish", t!"Manny",
   t!"Manuel", t!"Marc", t!"Marcel", t!"Marcello", t!"Marcellus", t!"Marcelo", t!"Marchall",
   t!"Marcio", t!"Marco", t!"Marcos", t!"Marcus", t!"Marietta", t!"Marilu", t!"Mario",
   t!"Marion", t!"Marius", t!"Mark", t!"Marko", t!"Markos", t!"Markus", t!"Marlin", t!"Marlo",
   t!"Marlon", t!"Marlow", t!"Marlowe", t!"Marmaduke", t!"Marsh", t!"Marshal", t!"Marshall",
   t!"Mart", t!"Martainn", t!"Marten", t!"Martie", t!"Martin", t!"Martino", t!"Marty",
   t!"Martyn", t!"Marv", t!"Marve", t!"Marven", t!"Marvin", t!"Marwin", t!"Mason", t!"Mateo",
   t!"Mathew", t!"Mathias", t!"Matias", t!"Matt", t!"Matteo", t!"Matthaeus"]

/-- `roman/male.tsv`, part 26. -/
def maleNames26 : List Str :=
  [t!"Mattheus", t!"Matthew", t!"Matthias", t!"Matthieu", t!"Matthiew", t!"Matthus",
   t!"Mattias", t!"Mattie", t!"Matty", t!"Maurice", t!"Mauricio", t!"Maurie", t!"Maurise",
   t!"Maurits", t!"Mauritz", t!"Maury", t!"Max", t!"Maxfield", t!"Maxie", t!"Maxim",
   t!"Maximilian", t!"Maximilien", t!"Maxwell", t!"Mayer", t!"Maynard", t!"Maynord", t!"Mayor",
   t!"Mead", t!"Meade", t!"Meier", t!"Meir", t!"Mel", t!"Melvin", t!"Melvyn", t!"Menard",
   t!"Mendel", t!"Mendie", t!"Meredeth", t!"Meredith", t!"Merell", t!"Merill", t!"Merle",
   t!"Merlin", t!"Merrel", t!"Merrick", t!"Merril", t!"Merrill", t!"Merry", t!"Merv",
   t!"Mervin", t!"Merwin", t!"Meryl", t!"Meyer", t!"Mic", t!"Micah", t!"Michael", t!"Michail",
   t!"Michal", t!"Michale", t!"Micheal", t!"Micheil", t!"Michel", t!"Michele", t!"Mick"]

/-- `roman/male.tsv`, part 27. -/
def maleNames27 : List Str :=
  [t!"Mickey", t!"Mickie", t!"Micky", t!"Miguel", t!"Mika", t!"Mikael", t!"Mike", t!"Mikel",
   t!"Mikey", t!"Mikhail", t!"Miles", t!"Millicent", t!"Milo", t!"Milt", t!"Milton",
   t!"Mischa", t!"Mitch", t!"Mitchael", t!"Mitchel", t!"Mitchell", t!"Moe", t!"Mohamad",
   t!"Mohamed", t!"Mohammad", t!"Mohammed", t!"Mohan", t!"Moise", t!"Moises", t!"Moishe",
   t!"Monroe", t!"Montague", t!"Monte", t!"Montgomery", t!"Monty", t!"Moore", t!"Mordecai",
   t!"Morgan", t!"Morlee", t!"Morley", t!"Morly", t!"Morrie", t!"Morris", t!"Morry", t!"Morse",
   t!"Mort", t!"Morten", t!"Mortie", t!"Mortimer", t!"Morton", t!"Morty", t!"Mose", t!"Moses",
   t!"Moshe", t!"Moss", t!"Muffin", t!"Mugsy", t!"Muhammad", t!"Munmro", t!"Munroe",
   t!"Murdoch", t!"Murdock", t!"Murphy", t!"Murray", t!"Mustafa"]

/-- `roman/male.tsv`, part 28. -/
def maleNames28 : List Str :=
  [t!"Myke", t!"Myles", t!"Mylo", t!"Myron", t!"Nahum", t!"Napoleon", t!"Nat", t!"Natale",
   t!"Nate", t!"Nathan", t!"Nathanael", t!"Nathanial", t!"Nathaniel", t!"Nathanil", t!"Neal",
   t!"Neale", t!"Neall", t!"Nealon", t!"Nealson", t!"Nealy", t!"Ned", t!"Neddie", t!"Neddy",
   t!"Neel", t!"Neil", t!"Nels", t!"Nelsen", t!"Nelson", t!"Nero", t!"Neron", t!"Nester",
   t!"Nestor", t!"Nev", t!"Nevil", t!"Nevile", t!"Neville", t!"Nevin", t!"Nevins", t!"Newton",
   t!"Niall", t!"Niccolo", t!"Nicholas", t!"Nichole", t!"Nichols", t!"Nick", t!"Nickey",
   t!"Nickie", t!"Nickolas", t!"Nicky", t!"Nico", t!"Nicolas", t!"Niels", t!"Nigel", t!"Niki",
   t!"Nikita", t!"Nikki", t!"Nikolai", t!"Nikos", t!"Niles", t!"Nils", t!"Nilson", t!"Niven",
   t!"Noach", t!"Noah"]

/-- `roman/male.tsv`, part 29. -/
def maleNames29 : List Str :=
  [t!"Noam", t!"Noble", t!"Noe", t!"Noel", t!"Nolan", t!"Noland", t!"Norbert", t!"Norm",
   t!"Norman", t!"Normand", t!"Normie", t!"Norris", t!"Northrop", t!"Northrup", t!"Norton",
   t!"Norwood", t!"Nunzio", t!"Obadiah", t!"Obadias", t!"Oberon", t!"Obie", t!"Octavius",
   t!"Odell", t!"Odie", t!"Odin", t!"Odysseus", t!"Olaf", t!"Olag", t!"Ole", t!"Oleg",
   t!"Olin", t!"Oliver", t!"Olivier", t!"Olle", t!"Ollie", t!"Omar", t!"Oral", t!"Oran",
   t!"Orazio", t!"Orbadiah", t!"Oren", t!"Orin", t!"Orion", t!"Orlando", t!"Orren", t!"Orrin",
   t!"Orson", t!"Orton", t!"Orville", t!"Osbert", t!"Osborn", t!"Osborne", t!"Osbourn",
   t!"Osbourne", t!"Oscar", t!"Osgood", t!"Osmond", t!"Osmund", t!"Ossie", t!"Oswald",
   t!"Oswell", t!"Otes", t!"Othello", t!"Otho"]

/-- `roman/male.tsv`, part 30. -/
def maleNames30 : List Str :=
  [t!"Otis", t!"Otto", t!"Owen", t!"Ozzie", t!"Ozzy", t!"Pablo", t!"Pace", t!"Paco",
   t!"Paddie", t!"Paddy", t!"Padraig", t!"Page", t!"Paige", t!"Pail", t!"Palmer", t!"Paolo",
   t!"Park", t!"Parke", t!"Parker", t!"Parnell", t!"Parrnell", t!"Parry", t!"Parsifal",
   t!"Partha", t!"Pascal", t!"Pascale", t!"Pasquale", t!"Pat", t!"Pate", t!"Patel", t!"Paten",
   t!"Patin", t!"Paton", t!"Patric", t!"Patrice", t!"Patricio", t!"Patrick", t!"Patrik",
   t!"Patsy", t!"Pattie", t!"Patty", t!"Paul", t!"Paulo", t!"Pavel", t!"Pearce", t!"Pedro",
   t!"Peirce", t!"Pembroke", t!"Pen", t!"Penn", t!"Pennie", t!"Penny", t!"Penrod", t!"Pepe",
   t!"Pepillo", t!"Pepito", t!"Perceval", t!"Percival", t!"Percy", t!"Perry", t!"Pete",
   t!"Peter", t!"Petey", t!"Petr"]

/-- `roman/male.tsv`, part 31. -/
def maleNames31 : List Str :=
  [t!"Peyter", t!"Peyton", t!"Phil", t!"Philbert", t!"Philip", t!"Phillip", t!"Phillipe",
   t!"Phillipp", t!"Phineas", t!"Phip", t!"Pierce", t!"Pierre", t!"Pierson", t!"Piet",
   t!"Pieter", t!"Pietro", t!"Piggy", t!"Pincas", t!"Pinchas", t!"Pincus", t!"Piotr", t!"Pip",
   t!"Pius", t!"Plato", t!"Pooh", t!"Porter", t!"Poul", t!"Powell", t!"Praneetf", t!"Prasad",
   t!"Prasun", t!"Prent", t!"Prentice", t!"Prentiss", t!"Prescott", t!"Preston", t!"Price",
   t!"Prince", t!"Pryce", t!"Puff", t!"Purcell", t!"Putnam", t!"Pyotr", t!"Quent", t!"Quentin",
   t!"Quiggly", t!"Quigly", t!"Quigman", t!"Quill", t!"Quillan", t!"Quincey", t!"Quincy",
   t!"Quinlan", t!"Quinn", t!"Quint", t!"Quintin", t!"Quinton", t!"Quintus", t!"Rab",
   t!"Rabbi", t!"Rabi", t!"Rad", t!"Radcliffe", t!"Rafael"]

/-- `roman/male.tsv`, part 32. -/
def maleNames32 : List Str :=
  [t!"Rafe", t!"Ragnar", t!"Raimund", t!"Rainer", t!"Raj", t!"Rajeev", t!"Raleigh", t!"Ralf",
   t!"Ralph", t!"Ram", t!"Rameses", t!"Ramesh", t!"Ramon", t!"Ramsay", t!"Ramsey", t!"Rand",
   t!"Randal", t!"Randall", t!"Randell", t!"Randi", t!"Randie", t!"Randolf", t!"Randolph",
   t!"Randy", t!"Ransell", t!"Ransom", t!"Raoul", t!"Raphael", t!"Raul", t!"Ravi", t!"Ravil",
   t!"Rawley", t!"Ray", t!"Raymond", t!"Raymund", t!"Raymundo", t!"Raynard", t!"Rayner",
   t!"Raynor", t!"Reagan", t!"Red", t!"Redford", t!"Redmond", t!"Reece", t!"Reed", t!"Rees",
   t!"Reese", t!"Reg", t!"Regan", t!"Regen", t!"Reggie", t!"Reggis", t!"Reggy", t!"Reginald",
   t!"Reginauld", t!"Reid", t!"Reilly", t!"Reinhard", t!"Reinhold", t!"Rem", t!"Remington",
   t!"Remus", t!"Renado", t!"Renaldo"]

/-- `roman/male.tsv`, part 33. -/
def maleNames33 : List Str :=
  [t!"Renard", t!"Renato", t!"Renaud", t!"Renault", t!"Rene", t!"Reube", t!"Reuben",
   t!"Reuven", t!"Rex", t!"Rey", t!"Reynard", t!"Reynold", t!"Reynolds", t!"Reza", t!"Rhett",
   t!"Ric", t!"Ricard", t!"Ricardo", t!"Riccardo", t!"Rice", t!"Rich", t!"Richard",
   t!"Richardo", t!"Richie", t!"Richmond", t!"Richy", t!"Rick", t!"Rickard", t!"Rickey",
   t!"Ricki", t!"Rickie", t!"Ricky", t!"Rik", t!"Rikki", t!"Riley", t!"Rinaldo", t!"Ripley",
   t!"Ritch", t!"Ritchie", t!"Roarke", t!"Rob", t!"Robb", t!"Robbert", t!"Robbie", t!"Robert",
   t!"Roberto", t!"Robin", t!"Robinson", t!"Rochester", t!"Rock", t!"Rockwell", t!"Rocky",
   t!"Rod", t!"Rodd", t!"Roddie", t!"Roddy", t!"Roderic", t!"Roderich", t!"Roderick",
   t!"Roderigo", t!"Rodge", t!"Rodger", t!"Rodney", t!"Rodolfo"]

/-- `roman/male.tsv`, part 34. -/
def maleNames34 : List Str :=
  [t!"Rodolph", t!"Rodolphe", t!"Rodrick", t!"Rodrigo", t!"Rodrique", t!"Rog", t!"Roger",
   t!"Rogers", t!"Roice", t!"Roland", t!"Rolando", t!"Rolf", t!"Rolfe", t!"Rolland",
   t!"Rollin", t!"Rollins", t!"Rollo", t!"Rolph", t!"Romain", t!"Roman", t!"Romeo", t!"Ron",
   t!"Ronald", t!"Ronen", t!"Roni", t!"Ronnie", t!"Ronny", t!"Roosevelt", t!"Rory", t!"Roscoe",
   t!"Ross", t!"Roth", t!"Rourke", t!"Rowland", t!"Roy", t!"Royal", t!"Royce", t!"Rube",
   t!"Ruben", t!"Rubin", t!"Ruby", t!"Rudd", t!"Ruddie", t!"Ruddy", t!"Rudie", t!"Rudiger",
   t!"Rudolf", t!"Rudolfo", t!"Rudolph", t!"Rudy", t!"Rudyard", t!"Rufe", t!"Rufus",
   t!"Rupert", t!"Ruperto", t!"Russ", t!"Russel", t!"Russell", t!"Rustie", t!"Rustin",
   t!"Rusty", t!"Rutger", t!"Rutherford", t!"Rutledge"]

/-- `roman/male.tsv`, part 35. -/
def maleNames35 : List Str :=
  [t!"Rutter", t!"Ryan", t!"Sal", t!"Salem", t!"Salim", t!"Salman", t!"Salmon", t!"Salomo",
   t!"Salomon", t!"Salomone", t!"Salvador", t!"Salvatore", t!"Salvidor", t!"Sam", t!"Sammie",
   t!"Sammy", t!"Sampson", t!"Samson", t!"Samuel", t!"Samuele", t!"Sancho", t!"Sander",
   t!"Sanders", t!"Sanderson", t!"Sandor", t!"Sandro", t!"Sandy", t!"Sanford", t!"Sanson",
   t!"Sansone", t!"Sarge", t!"Sargent", t!"Sascha", t!"Sasha", t!"Saul", t!"Sauncho",
   t!"Saunder", t!"Saunders", t!"Saunderson", t!"Saundra", t!"Saw", t!"Sawyer", t!"Sawyere",
   t!"Sax", t!"Saxe", t!"Saxon", t!"Say", t!"Sayer", t!"Sayers", t!"Sayre", t!"Sayres",
   t!"Scarface", t!"Schroeder", t!"Schuyler", t!"Scot", t!"Scott", t!"Scotti", t!"Scottie",
   t!"Scotty", t!"Seamus", t!"Sean", t!"Sebastian", t!"Sebastiano", t!"Sebastien"]

/-- `roman/male.tsv`, part 36. -/
def maleNames36 : List Str :=
  [t!"See", t!"Selby", t!"Selig", t!"Serge", t!"Sergeant", t!"Sergei", t!"Sergent", t!"Sergio",
   t!"Seth", t!"Seymour", t!"Shadow", t!"Shaine", t!"Shalom", t!"Shamus", t!"Shamshi-Adad",
   t!"Shanan", t!"Shane", t!"Shannan", t!"Shannon", t!"Shaughn", t!"Shaun", t!"Shaw",
   t!"Shawn", t!"Shay", t!"Shayne", t!"Shea", t!"Sheff", t!"Sheffie", t!"Sheffield",
   t!"Sheffy", t!"Shelby", t!"Shelden", t!"Sheldon", t!"Shell", t!"Shelley", t!"Shelton",
   t!"Shem", t!"Shep", t!"Shepard", t!"Shepherd", t!"Sheppard", t!"Shepperd", t!"Sheridan",
   t!"Sherlock", t!"Sherlocke", t!"Sherman", t!"Sherwin", t!"Sherwood", t!"Sherwynd",
   t!"Shimon", t!"Shlomo", t!"Sholom", t!"Shorty", t!"Shurlock", t!"Shurlocke", t!"Shurwood",
   t!"Si", t!"Sibyl", t!"Sid", t!"Siddhartha", t!"Sidnee", t!"Sidney", t!"Siegfried", t!"Siffre"]

/-- `roman/male.tsv`, part 37. -/
def maleNames37 : List Str :=
  [t!"Sig", t!"Sigfrid", t!"Sigfried", t!"Sigmund", t!"Silas", t!"Silvain", t!"Silvan",
   t!"Silvano", t!"Silvanus", t!"Silvester", t!"Silvio", t!"Sim", t!"Simeon", t!"Simmonds",
   t!"Simon", t!"Simone", t!"Sinclair", t!"Sinclare", t!"Sivert", t!"Siward", t!"Sixtus",
   t!"Skell", t!"Skelly", t!"Skip", t!"Skipp", t!"Skipper", t!"Skippie", t!"Skippy",
   t!"Skipton", t!"Sky", t!"Skye", t!"Skylar", t!"Skyler", t!"Slade", t!"Slim", t!"Sloan",
   t!"Sloane", t!"Sly", t!"Smith", t!"Smitty", t!"Socrates", t!"Sol", t!"Sollie", t!"Solly",
   t!"Solomon", t!"Somerset", t!"Son", t!"Sonnie", t!"Sonny", t!"Sparky", t!"Spence",
   t!"Spencer", t!"Spense", t!"Spenser", t!"Spike", t!"Spiro", t!"Spiros", t!"Spud",
   t!"Srinivas", t!"Stacy", t!"Staffard", t!"Stafford", t!"Staford", t!"Stan"]

/-- `roman/male.tsv`, part 38. -/
def maleNames38 : List Str :=
  [t!"Standford", t!"Stanfield", t!"Stanford", t!"Stanislaw", t!"Stanleigh", t!"Stanley",
   t!"Stanly", t!"Stanton", t!"Stanwood", t!"Stavros", t!"Stearn", t!"Stearne", t!"Stefan",
   t!"Stefano", t!"Steffen", t!"Stephan", t!"Stephanus", t!"Stephen", t!"Sterling", t!"Stern",
   t!"Sterne", t!"Steve", t!"Steven", t!"Stevie", t!"Stevy", t!"Stew", t!"Steward",
   t!"Stewart", t!"Stig", t!"Stillman", t!"Stillmann", t!"Sting", t!"Stinky", t!"Stirling",
   t!"Stu", t!"Stuart", t!"Sturgis", t!"Sullivan", t!"Sully", t!"Sumner", t!"Sunny",
   t!"Sutherland", t!"Sutton", t!"Sven", t!"Swen", t!"Syd", t!"Sydney", t!"Sylvan",
   t!"Sylvester", t!"Tab", t!"Tabb", t!"Tabbie", t!"Tabby", t!"Taber", t!"Tabor", t!"Tad",
   t!"Tadd", t!"Taddeo", t!"Taddeus", t!"Tadeas", t!"Tailor", t!"Tait", t!"Taite", t!"Talbert"]

/-- `roman/male.tsv`, part 39. -/
def maleNames39 : List Str :=
  [t!"Talbot", t!"Tallie", t!"Tally", t!"Tam", t!"Tamas", t!"Tammie", t!"Tammy", t!"Tan",
   t!"Tann", t!"Tanner", t!"Tanney", t!"Tannie", t!"Tanny", t!"Tarrance", t!"Tarrant",
   t!"Tarzan", t!"Tate", t!"Taylor", t!"Teador", t!"Ted", t!"Tedd", t!"Teddie", t!"Teddy",
   t!"Tedie", t!"Tedman", t!"Tedmund", t!"Tedrick", t!"Temp", t!"Temple", t!"Templeton",
   t!"Teodoor", t!"Teodor", t!"Teodorico", t!"Teodoro", t!"Terence", t!"Terencio",
   t!"Terrance", t!"Terrel", t!"Terrell", t!"Terrence", t!"Terri", t!"Terrill", t!"Terry",
   t!"Thacher", t!"Thad", t!"Thaddeus", t!"Thaddius", t!"Thaddus", t!"Thadeus", t!"Thain",
   t!"Thaine", t!"Thane", t!"Tharen", t!"Thatch", t!"Thatcher", t!"Thaxter", t!"Thayne",
   t!"Thebault", t!"Thedric", t!"Thedrick", t!"Theo", t!"Theobald", t!"Theodor", t!"Theodore"]

/-- `roman/male.tsv`, part 40. -/
def maleNames40 : List Str :=
  [t!"Theodoric", t!"Theophyllus", t!"Thibaud", t!"Thibaut", t!"Thom", t!"Thomas", t!"Thor",
   t!"Thorn", t!"Thorndike", t!"Thornie", t!"Thornton", t!"Thorny", t!"Thorpe", t!"Thorstein",
   t!"Thorsten", t!"Thorvald", t!"Thurstan", t!"Thurston", t!"Tibold", t!"Tiebold",
   t!"Tiebout", t!"Tiler", t!"Tim", t!"Timmie", t!"Timmy", t!"Timothee", t!"Timotheus",
   t!"Timothy", t!"Tirrell", t!"Tito", t!"Titos", t!"Titus", t!"Tobe", t!"Tobiah", t!"Tobias",
   t!"Tobie", t!"Tobin", t!"Tobit", t!"Toby", t!"Tod", t!"Todd", t!"Toddie", t!"Toddy",
   t!"Tom", t!"Tomas", t!"Tome", t!"Tomkin", t!"Tomlin", t!"Tommie", t!"Tommy", t!"Tonnie",
   t!"Tony", t!"Tore", t!"Torey", t!"Torin", t!"Torr", t!"Torrance", t!"Torre", t!"Torrence",
   t!"Torrey", t!"Torrin", t!"Torry", t!"Town", t!"Towney"]

/-- `roman/male.tsv`, part 41. -/
def maleNames41 : List Str :=
  [t!"Townie", t!"Townsend", t!"Towny", t!"Trace", t!"Tracey", t!"Tracie", t!"Tracy",
   t!"Traver", t!"Travers", t!"Travis", t!"Tray", t!"Tre", t!"Tremain", t!"Tremaine",
   t!"Tremayne", t!"Trent", t!"Trenton", t!"Trev", t!"Trevar", t!"Trever", t!"Trevor",
   t!"Trey", t!"Trip", t!"Tristan", t!"Troy", t!"Truman", t!"Tuck", t!"Tucker", t!"Tuckie",
   t!"Tucky", t!"Tudor", t!"Tull", t!"Tulley", t!"Tully", t!"Turner", t!"Ty", t!"Tybalt",
   t!"Tye", t!"Tyler", t!"Tymon", t!"Tymothy", t!"Tynan", t!"Tyrone", t!"Tyrus", t!"Tyson",
   t!"Udale", t!"Udall", t!"Udell", t!"Ugo", t!"Ulberto", t!"Uli", t!"Ulick", t!"Ulises",
   t!"Ulric", t!"Ulrich", t!"Ulrick", t!"Ulysses", t!"Umberto", t!"Upton", t!"Urbain",
   t!"Urban", t!"Urbano", t!"Urbanus", t!"Uri"]

/-- `roman/male.tsv`, part 42. -/
def maleNames42 : List Str :=
  [t!"Uriah", t!"Uriel", t!"Urson", t!"Vachel", t!"Vaclav", t!"Vail", t!"Val", t!"Valdemar",
   t!"Vale", t!"Valentin", t!"Valentine", t!"Valentinian", t!"Van", t!"Vance", t!"Vasili",
   t!"Vasilis", t!"Vasily", t!"Vassili", t!"Vassily", t!"Vaughan", t!"Vaughn", t!"Venkat",
   t!"Verge", t!"Vergil", t!"Vern", t!"Verne", t!"Vernen", t!"Verney", t!"Vernon", t!"Vernor",
   t!"Vic", t!"Vick", t!"Victor", t!"Vijay", t!"Vilhelm", t!"Vin", t!"Vince", t!"Vincent",
   t!"Vincents", t!"Vinnie", t!"Vinny", t!"Vinod", t!"Virge", t!"Virgie", t!"Virgil",
   t!"Virgilio", t!"Vite", t!"Vito", t!"Vlad", t!"Vladamir", t!"Vladimir", t!"Voltaire",
   t!"Von", t!"Wade", t!"Wadsworth", t!"Wain", t!"Waine", t!"Wainwright", t!"Wait", t!"Waite",
   t!"Waiter", t!"Wake", t!"Wakefield", t!"Wald"]

/-- `roman/male.tsv`, part 43. -/
def maleNames43 : List Str :=
  [t!"Waldemar", t!"Walden", t!"Waldo", t!"Waldon", t!"Waleed", t!"Walker", t!"Wallace",
   t!"Wallache", t!"Wallas", t!"Wallie", t!"Wallis", t!"Wally", t!"Walsh", t!"Walt",
   t!"Walter", t!"Walther", t!"Walton", t!"Wang", t!"Ward", t!"Warde", t!"Warden", t!"Ware",
   t!"Waring", t!"Warner", t!"Warren", t!"Wash", t!"Washington", t!"Wat", t!"Waverley",
   t!"Waverly", t!"Way", t!"Waylan", t!"Wayland", t!"Waylen", t!"Waylin", t!"Waylon",
   t!"Wayne", t!"Web", t!"Webb", t!"Weber", t!"Webster", t!"Weidar", t!"Weider", t!"Welbie",
   t!"Welby", t!"Welch", t!"Wells", t!"Welsh", t!"Wendall", t!"Wendel", t!"Wendell",
   t!"Werner", t!"Wes", t!"Wesley", t!"Weslie", t!"West", t!"Westbrook", t!"Westbrooke",
   t!"Westleigh", t!"Westley", t!"Weston", t!"Weylin", t!"Wheeler", t!"Whit"]

/-- `roman/male.tsv`, part 44. -/
def maleNames44 : List Str :=
  [t!"Whitaker", t!"Whitby", t!"Whitman", t!"Whitney", t!"Whittaker", t!"Wiatt", t!"Wilber",
   t!"Wilbert", t!"Wilbur", t!"Wilburn", t!"Wilburt", t!"Wilden", t!"Wildon", t!"Wilek",
   t!"Wiley", t!"Wilfred", t!"Wilfrid", t!"Wilhelm", t!"Will", t!"Willard", t!"Willdon",
   t!"Willem", t!"Willey", t!"Willi", t!"William", t!"Willie", t!"Willis", t!"Willmott",
   t!"Willy", t!"Wilmar", t!"Wilmer", t!"Wilson", t!"Wilt", t!"Wilton", t!"Win", t!"Windham",
   t!"Winfield", t!"Winford", t!"Winfred", t!"Winifield", t!"Winn", t!"Winnie", t!"Winny",
   t!"Winslow", t!"Winston", t!"Winthrop", t!"Winton", t!"Wit", t!"Witold", t!"Wittie",
   t!"Witty", t!"Wojciech", t!"Wolfgang", t!"Wolfie", t!"Wolfram", t!"Wolfy", t!"Woochang",
   t!"Woodie", t!"Woodman", t!"Woodrow", t!"Woody", t!"Worden", t!"Worthington", t!"Worthy"]

/-- `roman/male.tsv`, part 45. -/
def maleNames45 : List Str :=
  [t!"Wright", t!"Wyatan", t!"Wyatt", t!"Wye", t!"Wylie", t!"Wyn", t!"Wyndham", t!"Wynn",
   t!"Wynton", t!"Xavier", t!"Xenos", t!"Xerxes", t!"Xever", t!"Ximenes", t!"Ximenez",
   t!"Xymenes", t!"Yaakov", t!"Yacov", t!"Yale", t!"Yanaton", t!"Yance", t!"Yancey", t!"Yancy",
   t!"Yank", t!"Yankee", t!"Yard", t!"Yardley", t!"Yehudi", t!"Yigal", t!"Yule", t!"Yuri",
   t!"Yves", t!"Zach", t!"Zacharia", t!"Zachariah", t!"Zacharias", t!"Zacharie", t!"Zachary",
   t!"Zacherie", t!"Zachery", t!"Zack", t!"Zackariah", t!"Zak", t!"Zalman", t!"Zane",
   t!"Zared", t!"Zary", t!"Zeb", t!"Zebadiah", t!"Zebedee", t!"Zebulen", t!"Zebulon",
   t!"Zechariah", t!"Zed", t!"Zedekiah", t!"Zeke", t!"Zelig", t!"Zerk", t!"Zeus", t!"Zippy",
   t!"Zollie", t!"Zolly", t!"Zorro", t!"Rahul"]

/-- `roman/male.tsv`, part 46. -/
def maleNames46 : List Str :=
  [t!"Shumeet", t!"Vibhu"]

/-- `roman/male.tsv`. -/
def maleNames : List Str :=
  maleNames0 ++ maleNames1 ++ maleNames2 ++ maleNames3 ++ maleNames4 ++ maleNames5 ++ maleNames6 ++ maleNames7 ++
  maleNames8 ++ maleNames9 ++ maleNames10 ++ maleNames11 ++ maleNames12 ++ maleNames13 ++ maleNames14 ++ maleNames15 ++
  maleNames16 ++ maleNames17 ++ maleNames18 ++ maleNames19 ++ maleNames20 ++ maleNames21 ++ maleNames22 ++ maleNames23 ++
  maleNames24 ++ maleNames25 ++ maleNames26 ++ maleNames27 ++ maleNames28 ++ maleNames29 ++ maleNames30 ++ maleNames31 ++
  maleNames32 ++ maleNames33 ++ maleNames34 ++ maleNames35 ++ maleNames36 ++ maleNames37 ++ maleNames38 ++ maleNames39 ++
  maleNames40 ++ maleNames41 ++ maleNames42 ++ maleNames43 ++ maleNames44 ++ maleNames45 ++ maleNames46

/-- `roman/female.tsv`, part 0. -/
def femaleNames0 : List Str :=
  [t!"Abagael", t!"Abagail", t!"Abbe", t!"Abbey", t!"Abbi", t!"Abbie", t!"Abby", t!"Abigael",
   t!"Abigail", t!"Abigale", t!"Abra", t!"Acacia", t!"Ada", t!"Adah", t!"Adaline", t!"Adara",
   t!"Addie", t!"Addis", t!"Adel", t!"Adela", t!"Adelaide", t!"Adele", t!"Adelice",
   t!"Adelina", t!"Adelind", t!"Adeline", t!"Adella", t!"Adelle", t!"Adena", t!"Adey", t!"Adi",
   t!"Adiana", t!"Adina", t!"Adora", t!"Adore", t!"Adoree", t!"Adorne", t!"Adrea", t!"Adria",
   t!"Adriaens", t!"Adrian", t!"Adriana", t!"Adriane", t!"Adrianna", t!"Adrianne", t!"Adrien",
   t!"Adriena", t!"Adrienne", t!"Aeriel", t!"Aeriela", t!"Aeriell", t!"Ag", t!"Agace",
   t!"Agata", t!"Agatha", t!"Agathe", t!"Aggi", t!"Aggie", t!"Aggy", t!"Agna", t!"Agnella",
   t!"Agnes", t!"Agnese", t!"Agnesse"]

/-- `roman/female.tsv`, part 1. -/
def femaleNames1 : List Str :=
  [t!"Agneta", t!"Agnola", t!"Agretha", t!"Aida", t!"Aidan", t!"Aigneis", t!"Aila", t!"Aile",
   t!"Ailee", t!"Aileen", t!"Ailene", t!"Ailey", t!"Aili", t!"Ailina", t!"Ailyn", t!"Aime",
   t!"Aimee", t!"Aimil", t!"Aina", t!"Aindrea", t!"Ainslee", t!"Ainsley", t!"Ainslie",
   t!"Ajay", t!"Alaine", t!"Alameda", t!"Alana", t!"Alanah", t!"Alane", t!"Alanna", t!"Alayne",
   t!"Alberta", t!"Albertina", t!"Albertine", t!"Albina", t!"Alecia", t!"Aleda", t!"Aleece",
   t!"Aleecia", t!"Aleen", t!"Alejandra", t!"Alejandrina", t!"Alena", t!"Alene",
   t!"Alessandra", t!"Aleta", t!"Alethea", t!"Alex", t!"Alexa", t!"Alexandra", t!"Alexandrina",
   t!"Alexi", t!"Alexia", t!"Alexina", t!"Alexine", t!"Alexis", t!"Alfie", t!"Alfreda",
   t!"Ali", t!"Alia", t!"Alica", t!"Alice", t!"Alicea", t!"Alicia"]

/-- `roman/female.tsv`, part 2. -/
def femaleNames2 : List Str :=
  [t!"Alida", t!"Alidia", t!"Alina", t!"Aline", t!"Alis", t!"Alisa", t!"Alisha", t!"Alison",
   t!"Alissa", t!"Alisun", t!"Alix", t!"Aliza", t!"Alla", t!"Alleen", t!"Allegra", t!"Allene",
   t!"Alli", t!"Allianora", t!"Allie", t!"Allina", t!"Allis", t!"Allison", t!"Allissa",
   t!"Allsun", t!"Ally", t!"Allyce", t!"Allyn", t!"Allys", t!"Allyson", t!"Alma", t!"Almeda",
   t!"Almeria", t!"Almeta", t!"Almira", t!"Almire", t!"Aloise", t!"Aloisia", t!"Aloysia",
   t!"Alpa", t!"Alta", t!"Althea", t!"Alvera", t!"Alvina", t!"Alvinia", t!"Alvira", t!"Alyce",
   t!"Alyda", t!"Alys", t!"Alysa", t!"Alyse", t!"Alysia", t!"Alyson", t!"Alyss", t!"Alyssa",
   t!"Amabel", t!"Amabelle", t!"Amalea", t!"Amalee", t!"Amaleta", t!"Amalia", t!"Amalie",
   t!"Amalita", t!"Amalle", t!"Amanda"]

/-- `roman/female.tsv`, part 3. -/
def femaleNames3 : List Str :=
  [t!"Amandi", t!"Amandie", t!"Amandy", t!"Amara", t!"Amargo", t!"Amata", t!"Amber",
   t!"Amberly", t!"Ambrosia", t!"Ambur", t!"Ame", t!"Amelia", t!"Amelie", t!"Amelina",
   t!"Ameline", t!"Amelita", t!"Ami", t!"Amie", t!"Amity", t!"Ammamaria", t!"Amy", t!"Ana",
   t!"Anabel", t!"Anabella", t!"Anabelle", t!"Anais", t!"Analiese", t!"Analise", t!"Anallese",
   t!"Anallise", t!"Anastasia", t!"Anastasie", t!"Anastassia", t!"Anatola", t!"Andee",
   t!"Andi", t!"Andie", t!"Andra", t!"Andrea", t!"Andreana", t!"Andree", t!"Andrei",
   t!"Andria", t!"Andriana", t!"Andriette", t!"Andromache", t!"Andromeda", t!"Andy",
   t!"Anestassia", t!"Anet", t!"Anett", t!"Anetta", t!"Anette", t!"Ange", t!"Angel",
   t!"Angela", t!"Angele", t!"Angelia", t!"Angelica", t!"Angelika", t!"Angelina", t!"Angeline",
   t!"Angelique", t!"Angelita"]

/-- `roman/female.tsv`, part 4. -/
def femaleNames4 : List Str :=
  [t!"Angelle", t!"Angie", t!"Angil", t!"Angy", t!"Ania", t!"Anica", t!"Anissa", t!"Anita",
   t!"Anitra", t!"Anja", t!"Anjanette", t!"Anjela", t!"Ann", t!"Ann-Mari", t!"Ann-Marie",
   t!"Anna", t!"Anna-Diana", t!"Anna-Diane", t!"Anna-Maria", t!"Annabal", t!"Annabel",
   t!"Annabela", t!"Annabell", t!"Annabella", t!"Annabelle", t!"Annadiana", t!"Annadiane",
   t!"Annalee", t!"Annalena", t!"Annaliese", t!"Annalisa", t!"Annalise", t!"Annalyse",
   t!"Annamari", t!"Annamaria", t!"Annamarie", t!"Anne", t!"Anne-Corinne", t!"Anne-Mar",
   t!"Anne-Marie", t!"Annecorinne", t!"Anneliese", t!"Annelise", t!"Annemarie", t!"Annetta",
   t!"Annette", t!"Anni", t!"Annice", t!"Annie", t!"Annissa", t!"Annmaria", t!"Annmarie",
   t!"Annnora", t!"Annora", t!"Anny", t!"Anselma", t!"Ansley", t!"Anstice", t!"Anthe",
   t!"Anthea", t!"Anthia", t!"Antoinette", t!"Antonella", t!"Antonetta"]

/-- `roman/female.tsv`, part 5. -/
def femaleNames5 : List Str :=
  [t!"Antonia", t!"Antonie", t!"Antonietta", t!"Antonina", t!"Anya", t!"Aphrodite",
   t!"Appolonia", t!"Aprilette", t!"Ara", t!"Arabel", t!"Arabela", t!"Arabele", t!"Arabella",
   t!"Arabelle", t!"Arda", t!"Ardath", t!"Ardeen", t!"Ardelia", t!"Ardelis", t!"Ardella",
   t!"Ardelle", t!"Arden", t!"Ardene", t!"Ardenia", t!"Ardine", t!"Ardis", t!"Ardith",
   t!"Ardra", t!"Ardyce", t!"Ardys", t!"Ardyth", t!"Aretha", t!"Ariadne", t!"Ariana",
   t!"Arianne", t!"Aridatha", t!"Ariel", t!"Ariela", t!"Ariella", t!"Arielle", t!"Arlana",
   t!"Arlee", t!"Arleen", t!"Arlen", t!"Arlena", t!"Arlene", t!"Arleta", t!"Arlette",
   t!"Arleyne", t!"Arlie", t!"Arliene", t!"Arlina", t!"Arlinda", t!"Arline", t!"Arly",
   t!"Arlyn", t!"Arlyne", t!"Aryn", t!"Ashely", t!"Ashlee", t!"Ashleigh", t!"Ashlen",
   t!"Ashley", t!"Ashli"]

/-- `roman/female.tsv`, part 6. -/
def femaleNames6 : List Str :=
  [t!"Ashlie", t!"Ashly", t!"Asia", t!"Astra", t!"Astrid", t!"Astrix", t!"Atalanta",
   t!"Athena", t!"Athene", t!"Atlanta", t!"Atlante", t!"Auberta", t!"Aubine", t!"Aubree",
   t!"Aubrette", t!"Aubrey", t!"Aubrie", t!"Aubry", t!"Audi", t!"Audie", t!"Audra", t!"Audre",
   t!"Audrey", t!"Audrie", t!"Audry", t!"Audrye", t!"Audy", t!"Augusta", t!"Auguste",
   t!"Augustina", t!"Augustine", t!"Aura", t!"Aurea", t!"Aurel", t!"Aurelea", t!"Aurelia",
   t!"Aurelie", t!"Auria", t!"Aurie", t!"Aurilia", t!"Aurlie", t!"Auroora", t!"Aurora",
   t!"Aurore", t!"Austin", t!"Austina", t!"Austine", t!"Ava", t!"Aveline", t!"Averil",
   t!"Averyl", t!"Avie", t!"Avis", t!"Aviva", t!"Avivah", t!"Avril", t!"Avrit", t!"Ayn",
   t!"Bab", t!"Babara", t!"Babette", t!"Babita", t!"Babs", t!"Bambi"]

/-- `roman/female.tsv`, part 7. -/
def femaleNames7 : List Str :=
  [t!"Bambie", t!"Bamby", t!"Barb", t!"Barbabra", t!"Barbara", t!"Barbara-Anne",
   t!"Barbaraanne", t!"Barbe", t!"Barbee", t!"Barbette", t!"Barbey", t!"Barbi", t!"Barbie",
   t!"Barbra", t!"Barby", t!"Bari", t!"Barrie", t!"Barry", t!"Basia", t!"Bathsheba",
   t!"Batsheva", t!"Bea", t!"Beatrice", t!"Beatrisa", t!"Beatrix", t!"Beatriz", t!"Beau",
   t!"Bebe", t!"Becca", t!"Becka", t!"Becki", t!"Beckie", t!"Becky", t!"Bee", t!"Beilul",
   t!"Beitris", t!"Bekki", t!"Bel", t!"Belia", t!"Belicia", t!"Belinda", t!"Belita", t!"Bell",
   t!"Bella", t!"Bellamy", t!"Bellanca", t!"Belle", t!"Bellina", t!"Belva", t!"Belvia",
   t!"Bendite", t!"Benedetta", t!"Benedicta", t!"Benedikta", t!"Benetta", t!"Benita",
   t!"Benni", t!"Bennie", t!"Benny", t!"Benoite", t!"Berenice", t!"Beret", t!"Berget", t!"Berna"]

/-- `roman/female.tsv`, part 8. -/
def femaleNames8 : List Str :=
  [t!"Bernadene", t!"Bernadette", t!"Bernadina", t!"Bernadine", t!"Bernardina", t!"Bernardine",
   t!"Bernelle", t!"Bernete", t!"Bernetta", t!"Bernette", t!"Berni", t!"Bernice", t!"Bernie",
   t!"Bernita", t!"Berny", t!"Berri", t!"Berrie", t!"Berry", t!"Bert", t!"Berta", t!"Berte",
   t!"Bertha", t!"Berthe", t!"Berti", t!"Bertie", t!"Bertina", t!"Bertine", t!"Berty",
   t!"Beryl", t!"Beryle", t!"Bess", t!"Bessie", t!"Bessy", t!"Beth", t!"Bethanne", t!"Bethany",
   t!"Bethena", t!"Bethina", t!"Betsey", t!"Betsy", t!"Betta", t!"Bette", t!"Bette-Ann",
   t!"Betteann", t!"Betteanne", t!"Betti", t!"Bettie", t!"Bettina", t!"Bettine", t!"Betty",
   t!"Bettye", t!"Beulah", t!"Bev", t!"Beverie", t!"Beverlee", t!"Beverlie", t!"Beverly",
   t!"Bevvy", t!"Bianca", t!"Bianka", t!"Biddy", t!"Bidget", t!"Bill", t!"Billi"]

/-- `roman/female.tsv`, part 9. -/
def femaleNames9 : List Str :=
  [t!"Billie", t!"Billy", t!"Binni", t!"Binnie", t!"Binny", t!"Bird", t!"Birdie", t!"Birgit",
   t!"Birgitta", t!"Blair", t!"Blaire", t!"Blake", t!"Blakelee", t!"Blakeley", t!"Blanca",
   t!"Blanch", t!"Blancha", t!"Blanche", t!"Blinni", t!"Blinnie", t!"Blinny", t!"Bliss",
   t!"Blisse", t!"Blithe", t!"Blondell", t!"Blondelle", t!"Blondie", t!"Blondy", t!"Blythe",
   t!"Bo", t!"Bobbette", t!"Bobbi", t!"Bobbie", t!"Bobby", t!"Bobette", t!"Bobina", t!"Bobine",
   t!"Bobinette", t!"Bonita", t!"Bonnee", t!"Bonni", t!"Bonnie", t!"Bonny", t!"Brana",
   t!"Brandais", t!"Brande", t!"Brandea", t!"Brandi", t!"Brandice", t!"Brandie", t!"Brandise",
   t!"Brandy", t!"Brea", t!"Breanne", t!"Brear", t!"Bree", t!"Breena", t!"Bren", t!"Brena",
   t!"Brenda", t!"Brenn", t!"Brenna", t!"Brett", t!"Bria"]

/-- `roman/female.tsv`, part 10. -/
def femaleNames10 : List Str :=
  [t!"Briana", t!"Brianna", t!"Brianne", t!"Bride", t!"Bridget", t!"Bridgett", t!"Bridgette",
   t!"Bridie", t!"Brier", t!"Brietta", t!"Brigid", t!"Brigida", t!"Brigit", t!"Brigitta",
   t!"Brigitte", t!"Brina", t!"Briney", t!"Briny", t!"Brit", t!"Brita", t!"Britaney",
   t!"Britani", t!"Briteny", t!"Britney", t!"Britni", t!"Britt", t!"Britta", t!"Brittan",
   t!"Brittany", t!"Britte", t!"Brittney", t!"Brook", t!"Brooke", t!"Brooks", t!"Brunella",
   t!"Brunhilda", t!"Brunhilde", t!"Bryana", t!"Bryn", t!"Bryna", t!"Brynn", t!"Brynna",
   t!"Brynne", t!"Buffy", t!"Bunni", t!"Bunnie", t!"Bunny", t!"Burta", t!"Cabrina",
   t!"Cacilia", t!"Cacilie", t!"Caitlin", t!"Caitrin", t!"Cal", t!"Calida", t!"Calla",
   t!"Calley", t!"Calli", t!"Callida", t!"Callie", t!"Cally", t!"Calypso", t!"Cam", t!"Camala"]

/-- `roman/female.tsv`, part 11. -/
def femaleNames11 : List Str :=
  [t!"Camel", t!"Camella", t!"Camellia", t!"Cameo", t!"Cami", t!"Camila", t!"Camile",
   t!"Camilla", t!"Camille", t!"Cammi", t!"Cammie", t!"Cammy", t!"Canada", t!"Candace",
   t!"Candi", t!"Candice", t!"Candida", t!"Candide", t!"Candie", t!"Candis", t!"Candra",
   t!"Candy", t!"Cappella", t!"Caprice", t!"Cara", t!"Caralie", t!"Caren", t!"Carena",
   t!"Caresa", t!"Caressa", t!"Caresse", t!"Carey", t!"Cari", t!"Caria", t!"Carie", t!"Caril",
   t!"Carilyn", t!"Carin", t!"Carina", t!"Carine", t!"Cariotta", t!"Carissa", t!"Carita",
   t!"Caritta", t!"Carla", t!"Carlee", t!"Carleen", t!"Carlen", t!"Carlena", t!"Carlene",
   t!"Carley", t!"Carli", t!"Carlie", t!"Carlin", t!"Carlina", t!"Carline", t!"Carlisle",
   t!"Carlita", t!"Carlota", t!"Carlotta", t!"Carly", t!"Carlye", t!"Carlyn", t!"Carlynn"]

/-- `roman/female.tsv`, part 12. -/
def femaleNames12 : List Str :=
  [t!"Carlynne", t!"Carma", t!"Carmel", t!"Carmela", t!"Carmelia", t!"Carmelina",
   t!"Carmelita", t!"Carmella", t!"Carmelle", t!"Carmen", t!"Carmina", t!"Carmine",
   t!"Carmita", t!"Carmon", t!"Caro", t!"Carol", t!"Carol-Jean", t!"Carola", t!"Carolan",
   t!"Carolann", t!"Carole", t!"Carolee", t!"Caroleen", t!"Carolie", t!"Carolin", t!"Carolina",
   t!"Caroline", t!"Caroljean", t!"Carolyn", t!"Carolyne", t!"Carolynn", t!"Caron", t!"Carree",
   t!"Carri", t!"Carrie", t!"Carrissa", t!"Carrol", t!"Carroll", t!"Carry", t!"Cary",
   t!"Caryl", t!"Caryn", t!"Casandra", t!"Casey", t!"Casi", t!"Casia", t!"Casie", t!"Cass",
   t!"Cassandra", t!"Cassandre", t!"Cassandry", t!"Cassaundra", t!"Cassey", t!"Cassi",
   t!"Cassie", t!"Cassondra", t!"Cassy", t!"Cat", t!"Catarina", t!"Cate", t!"Caterina",
   t!"Catha", t!"Catharina", t!"Catharine"]

/-- `roman/female.tsv`, part 13. -/
def femaleNames13 : List Str :=
  [t!"Cathe", t!"Cathee", t!"Catherin", t!"Catherina", t!"Catherine", t!"Cathi", t!"Cathie",
   t!"Cathleen", t!"Cathlene", t!"Cathrin", t!"Cathrine", t!"Cathryn", t!"Cathy",
   t!"Cathyleen", t!"Cati", t!"Catie", t!"Catina", t!"Catlaina", t!"Catlee", t!"Catlin",
   t!"Catrina", t!"Catriona", t!"Caty", t!"Cayla", t!"Cecelia", t!"Cecil", t!"Cecile",
   t!"Ceciley", t!"Cecilia", t!"Cecilla", t!"Cecily", t!"Ceil", t!"Cele", t!"Celene",
   t!"Celesta", t!"Celeste", t!"Celestia", t!"Celestina", t!"Celestine", t!"Celestyn",
   t!"Celestyna", t!"Celia", t!"Celie", t!"Celina", t!"Celinda", t!"Celine", t!"Celinka",
   t!"Celisse", t!"Celle", t!"Cesya", t!"Chad", t!"Chanda", t!"Chandal", t!"Chandra",
   t!"Channa", t!"Chantal", t!"Chantalle", t!"Charil", t!"Charin", t!"Charis", t!"Charissa",
   t!"Charisse", t!"Charita", t!"Charity"]

/-- `roman/female.tsv`, part 14. -/
def femaleNames14 : List Str :=
  [t!"Charla", t!"Charlean", t!"Charleen", t!"Charlena", t!"Charlene", t!"Charline",
   t!"Charlot", t!"Charlott", t!"Charlotta", t!"Charlotte", t!"Charmain", t!"Charmaine",
   t!"Charmane", t!"Charmian", t!"Charmine", t!"Charmion", t!"Charo", t!"Charyl", t!"Chastity",
   t!"Chelsae", t!"Chelsea", t!"Chelsey", t!"Chelsie", t!"Chelsy", t!"Cher", t!"Chere",
   t!"Cherey", t!"Cheri", t!"Cherianne", t!"Cherice", t!"Cherida", t!"Cherie", t!"Cherilyn",
   t!"Cherilynn", t!"Cherin", t!"Cherise", t!"Cherish", t!"Cherlyn", t!"Cherri", t!"Cherrita",
   t!"Cherry", t!"Chery", t!"Cherye", t!"Cheryl", t!"Cheslie", t!"Chiarra", t!"Chickie",
   t!"Chicky", t!"Chiquita", t!"Chloe", t!"Chloette", t!"Chloris", t!"Chris", t!"Chriss",
   t!"Chrissa", t!"Chrissie", t!"Chrissy", t!"Christa", t!"Christabel", t!"Christabella",
   t!"Christabelle", t!"Christal", t!"Christalle", t!"Christan"]

/-- `roman/female.tsv`, part 15. -/
def femaleNames15 : List Str :=
  [t!"Christean", t!"Christel", t!"Christen", t!"Christi", t!"Christian", t!"Christiana",
   t!"Christiane", t!"Christie", t!"Christin", t!"Christina", t!"Christine", t!"Christy",
   t!"Christyna", t!"Chrysa", t!"Chrysler", t!"Chrystal", t!"Chryste", t!"Chrystel", t!"Ciara",
   t!"Cicely", t!"Cicily", t!"Ciel", t!"Cilka", t!"Cinda", t!"Cindee", t!"Cindelyn",
   t!"Cinderella", t!"Cindi", t!"Cindie", t!"Cindra", t!"Cindy", t!"Cinnamon", t!"Cissie",
   t!"Cissy", t!"Clair", t!"Claire", t!"Clara", t!"Clarabelle", t!"Clare", t!"Claresta",
   t!"Clareta", t!"Claretta", t!"Clarette", t!"Clarey", t!"Clari", t!"Claribel", t!"Clarice",
   t!"Clarie", t!"Clarinda", t!"Clarine", t!"Clarisa", t!"Clarissa", t!"Clarisse", t!"Clarita",
   t!"Clary", t!"Claude", t!"Claudelle", t!"Claudetta", t!"Claudette", t!"Claudia",
   t!"Claudie", t!"Claudina", t!"Claudine", t!"Clea"]

/-- `roman/female.tsv`, part 16. -/
def femaleNames16 : List Str :=
  [t!"Clem", t!"Clemence", t!"Clementia", t!"Clementina", t!"Clementine", t!"Clemmie",
   t!"Clemmy", t!"Cleo", t!"Cleopatra", t!"Clerissa", t!"Cleva", t!"Clio", t!"Clo", t!"Cloe",
   t!"Cloris", t!"Clotilda", t!"Clovis", t!"Codee", t!"Codi", t!"Codie", t!"Cody", t!"Coleen",
   t!"Colene", t!"Coletta", t!"Colette", t!"Colleen", t!"Collete", t!"Collette", t!"Collie",
   t!"Colline", t!"Colly", t!"Con", t!"Concettina", t!"Conchita", t!"Concordia", t!"Conney",
   t!"Conni", t!"Connie", t!"Conny", t!"Consolata", t!"Constance", t!"Constancia",
   t!"Constancy", t!"Constanta", t!"Constantia", t!"Constantina", t!"Constantine",
   t!"Consuela", t!"Consuelo", t!"Cookie", t!"Cora", t!"Corabel", t!"Corabella", t!"Corabelle",
   t!"Coral", t!"Coralie", t!"Coraline", t!"Coralyn", t!"Cordelia", t!"Cordelie", t!"Cordey",
   t!"Cordie", t!"Cordula", t!"Cordy"]

/-- `roman/female.tsv`, part 17. -/
def femaleNames17 : List Str :=
  [t!"Coreen", t!"Corella", t!"Corena", t!"Corenda", t!"Corene", t!"Coretta", t!"Corette",
   t!"Corey", t!"Cori", t!"Corie", t!"Corilla", t!"Corina", t!"Corine", t!"Corinna",
   t!"Corinne", t!"Coriss", t!"Corissa", t!"Corliss", t!"Corly", t!"Cornela", t!"Cornelia",
   t!"Cornelle", t!"Cornie", t!"Corny", t!"Correna", t!"Correy", t!"Corri", t!"Corrianne",
   t!"Corrie", t!"Corrina", t!"Corrine", t!"Corrinne", t!"Corry", t!"Cortney", t!"Cory",
   t!"Cosetta", t!"Cosette", t!"Courtenay", t!"Courtney", t!"Cresa", t!"Cris", t!"Crissie",
   t!"Crissy", t!"Crista", t!"Cristabel", t!"Cristal", t!"Cristen", t!"Cristi", t!"Cristie",
   t!"Cristin", t!"Cristina", t!"Cristine", t!"Cristionna", t!"Cristy", t!"Crysta",
   t!"Crystal", t!"Crystie", t!"Cyb", t!"Cybal", t!"Cybel", t!"Cybelle", t!"Cybil", t!"Cybill",
   t!"Cyndi"]

/-- `roman/female.tsv`, part 18. -/
def femaleNames18 : List Str :=
  [t!"Cyndy", t!"Cynthea", t!"Cynthia", t!"Cynthie", t!"Cynthy", t!"Dacey", t!"Dacia",
   t!"Dacie", t!"Dacy", t!"Dael", t!"Daffi", t!"Daffie", t!"Daffy", t!"Dafna", t!"Dagmar",
   t!"Dahlia", t!"Daile", t!"Daisey", t!"Daisi", t!"Daisie", t!"Daisy", t!"Dale", t!"Dalenna",
   t!"Dalia", t!"Dalila", t!"Dallas", t!"Daloris", t!"Damara", t!"Damaris", t!"Damita",
   t!"Dana", t!"Danell", t!"Danella", t!"Danelle", t!"Danette", t!"Dani", t!"Dania",
   t!"Danica", t!"Danice", t!"Daniel", t!"Daniela", t!"Daniele", t!"Daniella", t!"Danielle",
   t!"Danika", t!"Danila", t!"Danit", t!"Danita", t!"Danna", t!"Danni", t!"Dannie", t!"Danny",
   t!"Dannye", t!"Danya", t!"Danyelle", t!"Danyette", t!"Daphene", t!"Daphna", t!"Daphne",
   t!"Dara", t!"Darb", t!"Darbie", t!"Darby", t!"Darcee"]

/-- `roman/female.tsv`, part 19. -/
def femaleNames19 : List Str :=
  [t!"Darcey", t!"Darci", t!"Darcie", t!"Darcy", t!"Darda", t!"Dareen", t!"Darell",
   t!"Darelle", t!"Dari", t!"Daria", t!"Darice", t!"Darla", t!"Darleen", t!"Darlene",
   t!"Darline", t!"Darryl", t!"Darsey", t!"Darsie", t!"Darya", t!"Daryl", t!"Daryn", t!"Dasha",
   t!"Dasi", t!"Dasie", t!"Dasya", t!"Datha", t!"Daune", t!"Daveen", t!"Daveta", t!"Davida",
   t!"Davina", t!"Davine", t!"Davita", t!"Dawn", t!"Dawna", t!"Dayle", t!"Dayna", t!"Dea",
   t!"Deana", t!"Deane", t!"Deanna", t!"Deanne", t!"Deb", t!"Debbi", t!"Debbie", t!"Debbra",
   t!"Debby", t!"Debee", t!"Debera", t!"Debi", t!"Debor", t!"Debora", t!"Deborah", t!"Debra",
   t!"Dede", t!"Dedie", t!"Dedra", t!"Dee", t!"Dee Dee", t!"Deeann", t!"Deeanne", t!"Deedee",
   t!"Deena", t!"Deerdre"]

/-- `roman/female.tsv`, part 20. -/
def femaleNames20 : List Str :=
  [t!"Dehlia", t!"Deidre", t!"Deina", t!"Deirdre", t!"Del", t!"Dela", t!"Delaney", t!"Delcina",
   t!"Delcine", t!"Delia", t!"Delila", t!"Delilah", t!"Delinda", t!"Dell", t!"Della",
   t!"Delly", t!"Delora", t!"Delores", t!"Deloria", t!"Deloris", t!"Delphina", t!"Delphine",
   t!"Delphinia", t!"Demeter", t!"Demetra", t!"Demetria", t!"Demetris", t!"Dena", t!"Deni",
   t!"Denice", t!"Denise", t!"Denna", t!"Denni", t!"Dennie", t!"Denny", t!"Deny", t!"Denys",
   t!"Denyse", t!"Deonne", t!"Desaree", t!"Desdemona", t!"Desirae", t!"Desiree", t!"Desiri",
   t!"Deva", t!"Devan", t!"Devi", t!"Devin", t!"Devina", t!"Devinne", t!"Devon", t!"Devondra",
   t!"Devonna", t!"Devonne", t!"Devora", t!"Dew", t!"Di", t!"Diahann", t!"Diamond", t!"Dian",
   t!"Diana", t!"Diandra", t!"Diane", t!"Diane-Marie"]

/-- `roman/female.tsv`, part 21. -/
def femaleNames21 : List Str :=
  [t!"Dianemarie", t!"Diann", t!"Dianna", t!"Dianne", t!"Diannne", t!"Didi", t!"Dido",
   t!"Diena", t!"Dierdre", t!"Dina", t!"Dinah", t!"Dinnie", t!"Dinny", t!"Dion", t!"Dione",
   t!"Dionis", t!"Dionne", t!"Dita", t!"Dix", t!"Dixie", t!"Dode", t!"Dodi", t!"Dodie",
   t!"Dody", t!"Doe", t!"Doll", t!"Dolley", t!"Dolli", t!"Dollie", t!"Dolly", t!"Dolora",
   t!"Dolores", t!"Dolorita", t!"Doloritas", t!"Dominica", t!"Dominique", t!"Dona",
   t!"Donella", t!"Donelle", t!"Donetta", t!"Donia", t!"Donica", t!"Donielle", t!"Donna",
   t!"Donnajean", t!"Donnamarie", t!"Donni", t!"Donnie", t!"Donny", t!"Dora", t!"Doralia",
   t!"Doralin", t!"Doralyn", t!"Doralynn", t!"Doralynne", t!"Dorcas", t!"Dore", t!"Doreen",
   t!"Dorelia", t!"Dorella", t!"Dorelle", t!"Dorena", t!"Dorene", t!"Doretta"]

/-- `roman/female.tsv`, part 22. -/
def femaleNames22 : List Str :=
  [t!"Dorette", t!"Dorey", t!"Dori", t!"Doria", t!"Dorian", t!"Dorice", t!"Dorie", t!"Dorine",
   t!"Doris", t!"Dorisa", t!"Dorise", t!"Dorit", t!"Dorita", t!"Doro", t!"Dorolice",
   t!"Dorolisa", t!"Dorotea", t!"Doroteya", t!"Dorothea", t!"Dorothee", t!"Dorothy",
   t!"Dorree", t!"Dorri", t!"Dorrie", t!"Dorris", t!"Dorry", t!"Dorthea", t!"Dorthy", t!"Dory",
   t!"Dosi", t!"Dot", t!"Doti", t!"Dotti", t!"Dottie", t!"Dotty", t!"Dove", t!"Drea", t!"Drew",
   t!"Dulce", t!"Dulcea", t!"Dulci", t!"Dulcia", t!"Dulciana", t!"Dulcie", t!"Dulcine",
   t!"Dulcinea", t!"Dulcy", t!"Dulsea", t!"Dusty", t!"Dyan", t!"Dyana", t!"Dyane", t!"Dyann",
   t!"Dyanna", t!"Dyanne", t!"Dyna", t!"Dynah", t!"E'Lane", t!"Eada", t!"Eadie", t!"Eadith",
   t!"Ealasaid", t!"Eartha", t!"Easter"]

/-- `roman/female.tsv`, part 23. -/
def femaleNames23 : List Str :=
  [t!"Eba", t!"Ebba", t!"Ebonee", t!"Ebony", t!"Eda", t!"Eddi", t!"Eddie", t!"Eddy", t!"Ede",
   t!"Edee", t!"Edeline", t!"Eden", t!"Edi", t!"Edie", t!"Edin", t!"Edita", t!"Edith",
   t!"Editha", t!"Edithe", t!"Ediva", t!"Edna", t!"Edwina", t!"Edy", t!"Edyth", t!"Edythe",
   t!"Effie", t!"Eileen", t!"Eilis", t!"Eimile", t!"Eirena", t!"Ekaterina", t!"Elaina",
   t!"Elaine", t!"Elana", t!"Elane", t!"Elayne", t!"Elberta", t!"Elbertina", t!"Elbertine",
   t!"Eleanor", t!"Eleanora", t!"Eleanore", t!"Electra", t!"Elena", t!"Elene", t!"Eleni",
   t!"Elenore", t!"Eleonora", t!"Eleonore", t!"Elfie", t!"Elfreda", t!"Elfrida", t!"Elfrieda",
   t!"Elga", t!"Elianora", t!"Elianore", t!"Elicia", t!"Elie", t!"Elinor", t!"Elinore",
   t!"Elisa", t!"Elisabet", t!"Elisabeth", t!"Elisabetta"]

/-- `roman/female.tsv`, part 24. -/
def femaleNames24 : List Str :=
  [t!"Elise", t!"Elisha", t!"Elissa", t!"Elita", t!"Eliza", t!"Elizabet", t!"Elizabeth",
   t!"Elka", t!"Elke", t!"Ella", t!"Elladine", t!"Elle", t!"Ellen", t!"Ellene", t!"Ellette",
   t!"Elli", t!"Ellie", t!"Ellissa", t!"Elly", t!"Ellyn", t!"Ellynn", t!"Elmira", t!"Elna",
   t!"Elnora", t!"Elnore", t!"Eloisa", t!"Eloise", t!"Elonore", t!"Elora", t!"Elsa",
   t!"Elsbeth", t!"Else", t!"Elsey", t!"Elsi", t!"Elsie", t!"Elsinore", t!"Elspeth", t!"Elsy",
   t!"Elva", t!"Elvera", t!"Elvina", t!"Elvira", t!"Elwina", t!"Elwira", t!"Elyn", t!"Elyse",
   t!"Elysee", t!"Elysha", t!"Elysia", t!"Elyssa", t!"Em", t!"Ema", t!"Emalee", t!"Emalia",
   t!"Emanuela", t!"Emelda", t!"Emelia", t!"Emelina", t!"Emeline", t!"Emelita", t!"Emelyne",
   t!"Emera", t!"Emilee", t!"Emili"]

/-- `roman/female.tsv`, part 25. -/
def femaleNames25 : List Str :=
  [t!"Emilia", t!"Emilie", t!"Emiline", t!"Emily", t!"Emlyn", t!"Emlynn", t!"Emlynne",
   t!"Emma", t!"Emmalee", t!"Emmaline", t!"Emmalyn", t!"Emmalynn", t!"Emmalynne", t!"Emmeline",
   t!"Emmey", t!"Emmi", t!"Emmie", t!"Emmy", t!"Emmye", t!"Emogene", t!"Emyle", t!"Emylee",
   t!"Endora", t!"Engracia", t!"Enid", t!"Enrica", t!"Enrichetta", t!"Enrika", t!"Enriqueta",
   t!"Enya", t!"Eolanda", t!"Eolande", t!"Eran", t!"Erda", t!"Erena", t!"Erica", t!"Ericha",
   t!"Ericka", t!"Erika", t!"Erin", t!"Erina", t!"Erinn", t!"Erinna", t!"Erma", t!"Ermengarde",
   t!"Ermentrude", t!"Ermina", t!"Erminia", t!"Erminie", t!"Erna", t!"Ernaline", t!"Ernesta",
   t!"Ernestine", t!"Ertha", t!"Eryn", t!"Esma", t!"Esmaria", t!"Esme", t!"Esmeralda",
   t!"Esmerelda", t!"Essa", t!"Essie", t!"Essy", t!"Esta"]

/-- `roman/female.tsv`, part 26. -/
def femaleNames26 : List Str :=
  [t!"Estel", t!"Estele", t!"Estell", t!"Estella", t!"Estelle", t!"Ester", t!"Esther",
   t!"Estrella", t!"Estrellita", t!"Ethel", t!"Ethelda", t!"Ethelin", t!"Ethelind",
   t!"Etheline", t!"Ethelyn", t!"Ethyl", t!"Etta", t!"Etti", t!"Ettie", t!"Etty", t!"Eudora",
   t!"Eugenia", t!"Eugenie", t!"Eugine", t!"Eula", t!"Eulalie", t!"Eunice", t!"Euphemia",
   t!"Eustacia", t!"Eva", t!"Evaleen", t!"Evangelia", t!"Evangelin", t!"Evangelina",
   t!"Evangeline", t!"Evania", t!"Evanne", t!"Eve", t!"Eveleen", t!"Evelina", t!"Eveline",
   t!"Evelyn", t!"Evette", t!"Evey", t!"Evie", t!"Evita", t!"Evonne", t!"Evvie", t!"Evvy",
   t!"Evy", t!"Eyde", t!"Eydie", t!"Fabrianne", t!"Fabrice", t!"Fae", t!"Faina", t!"Faith",
   t!"Fallon", t!"Fan", t!"Fanchette", t!"Fanchon", t!"Fancie", t!"Fancy", t!"Fanechka"]

/-- `roman/female.tsv`, part 27. -/
def femaleNames27 : List Str :=
  [t!"Fania", t!"Fanni", t!"Fannie", t!"Fanny", t!"Fanya", t!"Fara", t!"Farah", t!"Farand",
   t!"Farica", t!"Farra", t!"Farrah", t!"Farrand", t!"Fatima", t!"Faun", t!"Faunie",
   t!"Faustina", t!"Faustine", t!"Fawn", t!"Fawna", t!"Fawne", t!"Fawnia", t!"Fay", t!"Faydra",
   t!"Faye", t!"Fayette", t!"Fayina", t!"Fayre", t!"Fayth", t!"Faythe", t!"Federica",
   t!"Fedora", t!"Felecia", t!"Felicdad", t!"Felice", t!"Felicia", t!"Felicity", t!"Felicle",
   t!"Felipa", t!"Felisha", t!"Felita", t!"Feliza", t!"Fenelia", t!"Feodora", t!"Ferdinanda",
   t!"Ferdinande", t!"Fern", t!"Fernanda", t!"Fernande", t!"Fernandina", t!"Ferne", t!"Fey",
   t!"Fiann", t!"Fianna", t!"Fidela", t!"Fidelia", t!"Fidelity", t!"Fifi", t!"Fifine",
   t!"Filia", t!"Filide", t!"Filippa", t!"Fina", t!"Fiona", t!"Fionna"]

/-- `roman/female.tsv`, part 28. -/
def femaleNames28 : List Str :=
  [t!"Fionnula", t!"Fiorenze", t!"Fleur", t!"Fleurette", t!"Flo", t!"Flor", t!"Flora",
   t!"Florance", t!"Flore", t!"Florella", t!"Florence", t!"Florencia", t!"Florentia",
   t!"Florenza", t!"Florette", t!"Flori", t!"Floria", t!"Florice", t!"Florida", t!"Florie",
   t!"Florina", t!"Florinda", t!"Floris", t!"Florri", t!"Florrie", t!"Florry", t!"Flory",
   t!"Flossi", t!"Flossie", t!"Flossy", t!"Flower", t!"Fortuna", t!"Fortune", t!"Fran",
   t!"France", t!"Francene", t!"Frances", t!"Francesca", t!"Francesmary", t!"Francine",
   t!"Francis", t!"Francisca", t!"Franciska", t!"Francoise", t!"Francyne", t!"Frank",
   t!"Frankie", t!"Franky", t!"Franni", t!"Frannie", t!"Franny", t!"Frayda", t!"Fred",
   t!"Freda", t!"Freddi", t!"Freddie", t!"Freddy", t!"Fredelia", t!"Frederica", t!"Fredericka",
   t!"Fredi", t!"Fredia", t!"Fredra", t!"Fredrika"]

/-- `roman/female.tsv`, part 29. -/
def femaleNames29 : List Str :=
  [t!"Freida", t!"Frieda", t!"Friederike", t!"Fulvia", t!"Gabbey", t!"Gabbi", t!"Gabbie",
   t!"Gabey", t!"Gabi", t!"Gabie", t!"Gabriel", t!"Gabriela", t!"Gabriell", t!"Gabriella",
   t!"Gabrielle", t!"Gabriellia", t!"Gabrila", t!"Gaby", t!"Gae", t!"Gael", t!"Gail", t!"Gale",
   t!"Gale ", t!"Galina", t!"Garland", t!"Garnet", t!"Garnette", t!"Gates", t!"Gavra",
   t!"Gavrielle", t!"Gay", t!"Gayla", t!"Gayle", t!"Gayleen", t!"Gaylene", t!"Gaynor",
   t!"Gelya", t!"Gen", t!"Gena", t!"Gene", t!"Geneva", t!"Genevieve", t!"Genevra", t!"Genia",
   t!"Genna", t!"Genni", t!"Gennie", t!"Gennifer", t!"Genny", t!"Genovera", t!"Genvieve",
   t!"George", t!"Georgeanna", t!"Georgeanne", t!"Georgena", t!"Georgeta", t!"Georgetta",
   t!"Georgette", t!"Georgia", t!"Georgiamay", t!"Georgiana", t!"Georgianna", t!"Georgianne",
   t!"Georgie"]

/-- `roman/female.tsv`, part 30. -/
def femaleNames30 : List Str :=
  [t!"Georgina", t!"Georgine", t!"Gera", t!"Geralda", t!"Geraldina", t!"Geraldine", t!"Gerda",
   t!"Gerhardine", t!"Geri", t!"Gerianna", t!"Gerianne", t!"Gerladina", t!"Germain",
   t!"Germaine", t!"Germana", t!"Gerri", t!"Gerrie", t!"Gerrilee", t!"Gerry", t!"Gert",
   t!"Gerta", t!"Gerti", t!"Gertie", t!"Gertrud", t!"Gertruda", t!"Gertrude", t!"Gertrudis",
   t!"Gerty", t!"Giacinta", t!"Giana", t!"Gianina", t!"Gianna", t!"Gigi", t!"Gilberta",
   t!"Gilberte", t!"Gilbertina", t!"Gilbertine", t!"Gilda", t!"Gill", t!"Gillan", t!"Gilli",
   t!"Gillian", t!"Gillie", t!"Gilligan", t!"Gilly", t!"Gina", t!"Ginelle", t!"Ginevra",
   t!"Ginger", t!"Ginni", t!"Ginnie", t!"Ginnifer", t!"Ginny", t!"Giorgia", t!"Giovanna",
   t!"Gipsy", t!"Giralda", t!"Gisela", t!"Gisele", t!"Gisella", t!"Giselle", t!"Gizela",
   t!"Glad", t!"Gladi"]

/-- `roman/female.tsv`, part 31. -/
def femaleNames31 : List Str :=
  [t!"Gladis", t!"Gladys", t!"Gleda", t!"Glen", t!"Glenda", t!"Glenine", t!"Glenn", t!"Glenna",
   t!"Glennie", t!"Glennis", t!"Glori", t!"Gloria", t!"Gloriana", t!"Gloriane", t!"Glorianna",
   t!"Glory", t!"Glyn", t!"Glynda", t!"Glynis", t!"Glynnis", t!"Godiva", t!"Golda",
   t!"Goldarina", t!"Goldi", t!"Goldia", t!"Goldie", t!"Goldina", t!"Goldy", t!"Grace",
   t!"Gracia", t!"Gracie", t!"Grata", t!"Gratia", t!"Gratiana", t!"Gray", t!"Grayce",
   t!"Grazia", t!"Gredel", t!"Greer", t!"Greta", t!"Gretal", t!"Gretchen", t!"Grete",
   t!"Gretel", t!"Grethel", t!"Gretna", t!"Gretta", t!"Grier", t!"Griselda", t!"Grissel",
   t!"Guendolen", t!"Guenevere", t!"Guenna", t!"Guglielma", t!"Gui", t!"Guillema",
   t!"Guillemette", t!"Guinevere", t!"Guinna", t!"Gunilla", t!"Gunvor", t!"Gus", t!"Gusella",
   t!"Gussi"]

/-- `roman/female.tsv`, part 32. -/
def femaleNames32 : List Str :=
  [t!"Gussie", t!"Gussy", t!"Gusta", t!"Gusti", t!"Gustie", t!"Gusty", t!"Gwen", t!"Gwendolen",
   t!"Gwendolin", t!"Gwendolyn", t!"Gweneth", t!"Gwenette", t!"Gwenn", t!"Gwenneth",
   t!"Gwenni", t!"Gwennie", t!"Gwenny", t!"Gwenora", t!"Gwenore", t!"Gwyn", t!"Gwyneth",
   t!"Gwynne", t!"Gypsy", t!"Hadria", t!"Hailee", t!"Haily", t!"Haleigh", t!"Halette",
   t!"Haley", t!"Hali", t!"Halie", t!"Halimeda", t!"Halley", t!"Halli", t!"Hallie", t!"Hally",
   t!"Hana", t!"Hanna", t!"Hannah", t!"Hanni", t!"Hannibal", t!"Hannie", t!"Hannis", t!"Hanny",
   t!"Happy", t!"Harlene", t!"Harley", t!"Harli", t!"Harlie", t!"Harmonia", t!"Harmonie",
   t!"Harmony", t!"Harri", t!"Harrie", t!"Harriet", t!"Harriett", t!"Harrietta", t!"Harriette",
   t!"Harriot", t!"Harriott", t!"Hatti", t!"Hattie", t!"Hatty", t!"Havivah"]

/-- `roman/female.tsv`, part 33. -/
def femaleNames33 : List Str :=
  [t!"Hayley", t!"Hazel", t!"Heath", t!"Heather", t!"Heda", t!"Hedda", t!"Heddi", t!"Heddie",
   t!"Hedi", t!"Hedvig", t!"Hedwig", t!"Hedy", t!"Heida", t!"Heide", t!"Heidi", t!"Heidie",
   t!"Helaina", t!"Helaine", t!"Helen", t!"Helen-Elizabeth", t!"Helena", t!"Helene", t!"Helga",
   t!"Helge", t!"Helise", t!"Hellene", t!"Helli", t!"Heloise", t!"Helsa", t!"Helyn",
   t!"Hendrika", t!"Henka", t!"Henrie", t!"Henrieta", t!"Henrietta", t!"Henriette",
   t!"Henryetta", t!"Hephzibah", t!"Hermia", t!"Hermina", t!"Hermine", t!"Herminia",
   t!"Hermione", t!"Herta", t!"Hertha", t!"Hester", t!"Hesther", t!"Hestia", t!"Hetti",
   t!"Hettie", t!"Hetty", t!"Hilarie", t!"Hilary", t!"Hilda", t!"Hildagard", t!"Hildagarde",
   t!"Hilde", t!"Hildegaard", t!"Hildegarde", t!"Hildy", t!"Hillary", t!"Hilliary", t!"Hinda",
   t!"Holley"]

/-- `roman/female.tsv`, part 34. -/
def femaleNames34 : List Str :=
  [t!"Holli", t!"Hollie", t!"Holly", t!"Holly-Anne", t!"Hollyanne", t!"Honey", t!"Honor",
   t!"Honoria", t!"Hope", t!"Horatia", t!"Hortense", t!"Hortensia", t!"Hulda", t!"Hyacinth",
   t!"Hyacintha", t!"Hyacinthe", t!"Hyacinthia", t!"Hyacinthie", t!"Hynda", t!"Ianthe",
   t!"Ibbie", t!"Ibby", t!"Ida", t!"Idalia", t!"Idalina", t!"Idaline", t!"Idell", t!"Idelle",
   t!"Idette", t!"Ike", t!"Ikey", t!"Ilana", t!"Ileana", t!"Ileane", t!"Ilene", t!"Ilise",
   t!"Ilka", t!"Illa", t!"Ilona", t!"Ilsa", t!"Ilse", t!"Ilysa", t!"Ilyse", t!"Ilyssa",
   t!"Imelda", t!"Imogen", t!"Imogene", t!"Imojean", t!"Ina", t!"Inci", t!"Indira", t!"Ines",
   t!"Inesita", t!"Inessa", t!"Inez", t!"Inga", t!"Ingaberg", t!"Ingaborg", t!"Inge",
   t!"Ingeberg", t!"Ingeborg", t!"Inger", t!"Ingrid", t!"Ingunna"]

/-- `roman/female.tsv`, part 35. -/
def femaleNames35 : List Str :=
  [t!"Inna", t!"Ioana", t!"Iolande", t!"Iolanthe", t!"Iona", t!"Iormina", t!"Ira", t!"Irena",
   t!"Irene", t!"Irina", t!"Iris", t!"Irita", t!"Irma", t!"Isa", t!"Isabeau", t!"Isabel",
   t!"Isabelita", t!"Isabella", t!"Isabelle", t!"Isador", t!"Isadora", t!"Isadore",
   t!"Isahella", t!"Iseabal", t!"Isidora", t!"Isis", t!"Isobel", t!"Issi", t!"Issie", t!"Issy",
   t!"Ivett", t!"Ivette", t!"Ivie", t!"Ivonne", t!"Ivory", t!"Ivy", t!"Izabel", t!"Izzi",
   t!"Jacenta", t!"Jacinda", t!"Jacinta", t!"Jacintha", t!"Jacinthe", t!"Jackelyn", t!"Jacki",
   t!"Jackie", t!"Jacklin", t!"Jacklyn", t!"Jackquelin", t!"Jackqueline", t!"Jacky",
   t!"Jaclin", t!"Jaclyn", t!"Jacquelin", t!"Jacqueline", t!"Jacquelyn", t!"Jacquelynn",
   t!"Jacquenetta", t!"Jacquenette", t!"Jacquetta", t!"Jacquette", t!"Jacqui", t!"Jacquie",
   t!"Jacynth"]

/-- `roman/female.tsv`, part 36. -/
def femaleNames36 : List Str :=
  [t!"Jada", t!"Jade", t!"Jaime", t!"Jaimie", t!"Jaine", t!"Jaleh", t!"Jami", t!"Jamie",
   t!"Jamima", t!"Jammie", t!"Jan", t!"Jana", t!"Janaya", t!"Janaye", t!"Jandy", t!"Jane",
   t!"Janean", t!"Janeczka", t!"Janeen", t!"Janel", t!"Janela", t!"Janella", t!"Janelle",
   t!"Janene", t!"Janenna", t!"Janessa", t!"Janet", t!"Janeta", t!"Janetta", t!"Janette",
   t!"Janeva", t!"Janey", t!"Jania", t!"Janice", t!"Janie", t!"Janifer", t!"Janina",
   t!"Janine", t!"Janis", t!"Janith", t!"Janka", t!"Janna", t!"Jannel", t!"Jannelle",
   t!"Janot", t!"Jany", t!"Jaquelin", t!"Jaquelyn", t!"Jaquenetta", t!"Jaquenette",
   t!"Jaquith", t!"Jasmin", t!"Jasmina", t!"Jasmine", t!"Jayme", t!"Jaymee", t!"Jayne",
   t!"Jaynell", t!"Jazmin", t!"Jean", t!"Jeana", t!"Jeane", t!"Jeanelle", t!"Jeanette"]

/-- `roman/female.tsv`, part 37. -/
def femaleNames37 : List Str :=
  [t!"Jeanie", t!"Jeanine", t!"Jeanna", t!"Jeanne", t!"Jeannette", t!"Jeannie", t!"Jeannine",
   t!"Jehanna", t!"Jelene", t!"Jemie", t!"Jemima", t!"Jemimah", t!"Jemmie", t!"Jemmy", t!"Jen",
   t!"Jena", t!"Jenda", t!"Jenelle", t!"Jenette", t!"Jeni", t!"Jenica", t!"Jeniece",
   t!"Jenifer", t!"Jeniffer", t!"Jenilee", t!"Jenine", t!"Jenn", t!"Jenna", t!"Jennee",
   t!"Jennette", t!"Jenni", t!"Jennica", t!"Jennie", t!"Jennifer", t!"Jennilee", t!"Jennine",
   t!"Jenny", t!"Jeraldine", t!"Jeralee", t!"Jere", t!"Jeri", t!"Jermaine", t!"Jerrie",
   t!"Jerrilee", t!"Jerrilyn", t!"Jerrine", t!"Jerry", t!"Jerrylee", t!"Jess", t!"Jessa",
   t!"Jessalin", t!"Jessalyn", t!"Jessamine", t!"Jessamyn", t!"Jesse", t!"Jesselyn", t!"Jessi",
   t!"Jessica", t!"Jessie", t!"Jessika", t!"Jessy", t!"Jewel", t!"Jewell", t!"Jewelle"]

/-- `roman/female.tsv`, part 38. -/
def femaleNames38 : List Str :=
  [t!"Jill", t!"Jillana", t!"Jillane", t!"Jillayne", t!"Jilleen", t!"Jillene", t!"Jilli",
   t!"Jillian", t!"Jillie", t!"Jilly", t!"Jinny", t!"Jo", t!"Jo Ann", t!"Jo-Ann", t!"Jo-Anne",
   t!"JoAnn", t!"JoAnne", t!"Joan", t!"Joana", t!"Joane", t!"Joanie", t!"Joann", t!"Joanna",
   t!"Joanne", t!"Joannes", t!"Jobey", t!"Jobi", t!"Jobie", t!"Jobina", t!"Joby", t!"Jobye",
   t!"Jobyna", t!"Jocelin", t!"Joceline", t!"Jocelyn", t!"Jocelyne", t!"Jodee", t!"Jodi",
   t!"Jodie", t!"Jody", t!"Joela", t!"Joelie", t!"Joell", t!"Joella", t!"Joelle", t!"Joellen",
   t!"Joelly", t!"Joellyn", t!"Joelynn", t!"Joete", t!"Joey", t!"Johanna", t!"Johannah",
   t!"Johnette", t!"Johnna", t!"Joice", t!"Jojo", t!"Jolee", t!"Joleen", t!"Jolene",
   t!"Joletta", t!"Joli", t!"Jolie", t!"Joline"]

/-- `roman/female.tsv`, part 39. -/
def femaleNames39 : List Str :=
  [t!"Joly", t!"Jolyn", t!"Jolynn", t!"Jonell", t!"Joni", t!"Jonie", t!"Jonis", t!"Jordain",
   t!"Jordan", t!"Jordana", t!"Jordanna", t!"Jorey", t!"Jori", t!"Jorie", t!"Jorrie",
   t!"Jorry", t!"Joscelin", t!"Josee", t!"Josefa", t!"Josefina", t!"Joselyn", t!"Josepha",
   t!"Josephina", t!"Josephine", t!"Josey", t!"Josi", t!"Josie", t!"Joslyn", t!"Josselyn",
   t!"Josy", t!"Jourdan", t!"Joy", t!"Joya", t!"Joyan", t!"Joyann", t!"Joyce", t!"Joycelin",
   t!"Joye", t!"Joyous", t!"Juana", t!"Juanita", t!"Jude", t!"Judi", t!"Judie", t!"Judith",
   t!"Juditha", t!"Judy", t!"Judye", t!"Julee", t!"Juli", t!"Julia", t!"Juliana", t!"Juliane",
   t!"Juliann", t!"Julianna", t!"Julianne", t!"Julie", t!"Julienne", t!"Juliet", t!"Julieta",
   t!"Julietta", t!"Juliette", t!"Julina", t!"Juline"]

/-- `roman/female.tsv`, part 40. -/
def femaleNames40 : List Str :=
  [t!"Julissa", t!"Julita", t!"Junette", t!"Junia", t!"Junie", t!"Junina", t!"Justin",
   t!"Justina", t!"Justine", t!"Jyoti", t!"Kacey", t!"Kacie", t!"Kacy", t!"Kai", t!"Kaia",
   t!"Kaila", t!"Kaile", t!"Kailey", t!"Kaitlin", t!"Kaitlyn", t!"Kaitlynn", t!"Kaja",
   t!"Kakalina", t!"Kala", t!"Kaleena", t!"Kali", t!"Kalie", t!"Kalila", t!"Kalina",
   t!"Kalinda", t!"Kalindi", t!"Kalli", t!"Kally", t!"Kameko", t!"Kamila", t!"Kamilah",
   t!"Kamillah", t!"Kandace", t!"Kandy", t!"Kania", t!"Kanya", t!"Kara", t!"Kara-Lynn",
   t!"Karalee", t!"Karalynn", t!"Kare", t!"Karee", t!"Karel", t!"Karen", t!"Karena", t!"Kari",
   t!"Karia", t!"Karie", t!"Karil", t!"Karilynn", t!"Karin", t!"Karina", t!"Karine",
   t!"Kariotta", t!"Karisa", t!"Karissa", t!"Karita", t!"Karla", t!"Karlee"]

/-- `roman/female.tsv`, part 41. -/
def femaleNames41 : List Str :=
  [t!"Karleen", t!"Karlen", t!"Karlene", t!"Karlie", t!"Karlotta", t!"Karlotte", t!"Karly",
   t!"Karlyn", t!"Karmen", t!"Karna", t!"Karol", t!"Karola", t!"Karole", t!"Karolina",
   t!"Karoline", t!"Karoly", t!"Karon", t!"Karrah", t!"Karrie", t!"Karry", t!"Kary", t!"Karyl",
   t!"Karylin", t!"Karyn", t!"Kasey", t!"Kass", t!"Kassandra", t!"Kassey", t!"Kassi",
   t!"Kassia", t!"Kassie", t!"Kaster", t!"Kat", t!"Kata", t!"Katalin", t!"Kate", t!"Katee",
   t!"Katerina", t!"Katerine", t!"Katey", t!"Kath", t!"Katha", t!"Katharina", t!"Katharine",
   t!"Katharyn", t!"Kathe", t!"Katheleen", t!"Katherina", t!"Katherine", t!"Katheryn",
   t!"Kathi", t!"Kathie", t!"Kathleen", t!"Kathlene", t!"Kathlin", t!"Kathrine", t!"Kathryn",
   t!"Kathryne", t!"Kathy", t!"Kathye", t!"Kati", t!"Katie", t!"Katina", t!"Katine"]

/-- `roman/female.tsv`, part 42. -/
def femaleNames42 : List Str :=
  [t!"Katinka", t!"Katleen", t!"Katlin", t!"Katrina", t!"Katrine", t!"Katrinka", t!"Katti",
   t!"Kattie", t!"Katuscha", t!"Katusha", t!"Katy", t!"Katya", t!"Kay", t!"Kaycee", t!"Kaye",
   t!"Kayla", t!"Kayle", t!"Kaylee", t!"Kayley", t!"Kaylil", t!"Kaylyn", t!"Kee", t!"Keeley",
   t!"Keelia", t!"Keely", t!"Kelcey", t!"Kelci", t!"Kelcie", t!"Kelcy", t!"Kelila", t!"Kellen",
   t!"Kelley", t!"Kelli", t!"Kellia", t!"Kellie", t!"Kellina", t!"Kellsie", t!"Kelly",
   t!"Kellyann", t!"Kelsey", t!"Kelsi", t!"Kelsy", t!"Kendra", t!"Kendre", t!"Kenna",
   t!"Keren", t!"Keri", t!"Keriann", t!"Kerianne", t!"Kerri", t!"Kerrie", t!"Kerrill",
   t!"Kerrin", t!"Kerry", t!"Kerstin", t!"Kesley", t!"Keslie", t!"Kessia", t!"Kessiah",
   t!"Ketti", t!"Kettie", t!"Ketty", t!"Kevina", t!"Kevyn"]

/-- `roman/female.tsv`, part 43. -/
def femaleNames43 : List Str :=
  [t!"Ki", t!"Kia", t!"Kiah", t!"Kial", t!"Kiele", t!"Kiersten", t!"Kikelia", t!"Kiley",
   t!"Kim", t!"Kimberlee", t!"Kimberley", t!"Kimberli", t!"Kimberly", t!"Kimberlyn",
   t!"Kimbra", t!"Kimmi", t!"Kimmie", t!"Kimmy", t!"Kinna", t!"Kip", t!"Kipp", t!"Kippie",
   t!"Kippy", t!"Kira", t!"Kirbee", t!"Kirbie", t!"Kirby", t!"Kiri", t!"Kirsten", t!"Kirsteni",
   t!"Kirsti", t!"Kirstie", t!"Kirstin", t!"Kirstyn", t!"Kissee", t!"Kissiah", t!"Kissie",
   t!"Kit", t!"Kitti", t!"Kittie", t!"Kitty", t!"Kizzee", t!"Kizzie", t!"Klara", t!"Klarika",
   t!"Klarrisa", t!"Konstance", t!"Konstanze", t!"Koo", t!"Kora", t!"Koral", t!"Koralle",
   t!"Kordula", t!"Kore", t!"Korella", t!"Koren", t!"Koressa", t!"Kori", t!"Korie", t!"Korney",
   t!"Korrie", t!"Korry", t!"Kourtney", t!"Kris"]

/-- `roman/female.tsv`, part 44. -/
def femaleNames44 : List Str :=
  [t!"Krissie", t!"Krissy", t!"Krista", t!"Kristal", t!"Kristan", t!"Kriste", t!"Kristel",
   t!"Kristen", t!"Kristi", t!"Kristien", t!"Kristin", t!"Kristina", t!"Kristine", t!"Kristy",
   t!"Kristyn", t!"Krysta", t!"Krystal", t!"Krystalle", t!"Krystle", t!"Krystyna", t!"Kyla",
   t!"Kyle", t!"Kylen", t!"Kylie", t!"Kylila", t!"Kylynn", t!"Kym", t!"Kynthia", t!"Kyrstin",
   t!"La", t!"Lacee", t!"Lacey", t!"Lacie", t!"Lacy", t!"Ladonna", t!"Laetitia", t!"Laila",
   t!"Laina", t!"Lainey", t!"Lamb", t!"Lana", t!"Lane", t!"Lanette", t!"Laney", t!"Lani",
   t!"Lanie", t!"Lanita", t!"Lanna", t!"Lanni", t!"Lanny", t!"Lara", t!"Laraine", t!"Lari",
   t!"Larina", t!"Larine", t!"Larisa", t!"Larissa", t!"Lark", t!"Laryssa", t!"Latashia",
   t!"Latia", t!"Latisha", t!"Latrena", t!"Latrina"]

/-- `roman/female.tsv`, part 45. -/
def femaleNames45 : List Str :=
  [t!"Laura", t!"Lauraine", t!"Laural", t!"Lauralee", t!"Laure", t!"Lauree", t!"Laureen",
   t!"Laurel", t!"Laurella", t!"Lauren", t!"Laurena", t!"Laurene", t!"Lauretta", t!"Laurette",
   t!"Lauri", t!"Laurianne", t!"Laurice", t!"Laurie", t!"Lauryn", t!"Lavena", t!"Laverna",
   t!"Laverne", t!"Lavina", t!"Lavinia", t!"Lavinie", t!"Layla", t!"Layne", t!"Layney",
   t!"Lea", t!"Leah", t!"Leandra", t!"Leann", t!"Leanna", t!"Leanne", t!"Leanor", t!"Leanora",
   t!"Lebbie", t!"Leda", t!"Lee", t!"LeeAnn", t!"Leeann", t!"Leeanne", t!"Leela", t!"Leelah",
   t!"Leena", t!"Leesa", t!"Leese", t!"Legra", t!"Leia", t!"Leiah", t!"Leigh", t!"Leigha",
   t!"Leila", t!"Leilah", t!"Leisha", t!"Lela", t!"Lelah", t!"Leland", t!"Lelia", t!"Lena",
   t!"Lenee", t!"Lenette", t!"Lenka", t!"Lenna"]

/-- `roman/female.tsv`, part 46. -/
def femaleNames46 : List Str :=
  [t!"Lenora", t!"Lenore", t!"Leodora", t!"Leoine", t!"Leola", t!"Leoline", t!"Leona",
   t!"Leonanie", t!"Leone", t!"Leonelle", t!"Leonie", t!"Leonora", t!"Leonore", t!"Leontine",
   t!"Leontyne", t!"Leora", t!"Leorah", t!"Leshia", t!"Lesley", t!"Lesli", t!"Leslie",
   t!"Lesly", t!"Lesya", t!"Leta", t!"Lethia", t!"Leticia", t!"Letisha", t!"Letitia",
   t!"Letta", t!"Letti", t!"Lettie", t!"Letty", t!"Leyla", t!"Lezlie", t!"Lia", t!"Lian",
   t!"Liana", t!"Liane", t!"Lianna", t!"Lianne", t!"Lib", t!"Libbey", t!"Libbi", t!"Libbie",
   t!"Libby", t!"Licha", t!"Lida", t!"Lidia", t!"Lil", t!"Lila", t!"Lilah", t!"Lilas",
   t!"Lilia", t!"Lilian", t!"Liliane", t!"Lilias", t!"Lilith", t!"Lilla", t!"Lilli",
   t!"Lillian", t!"Lillis", t!"Lilllie", t!"Lilly", t!"Lily"]

/-- `roman/female.tsv`, part 47. -/
def femaleNames47 : List Str :=
  [t!"Lilyan", t!"Lin", t!"Lina", t!"Lind", t!"Linda", t!"Lindi", t!"Lindie", t!"Lindsay",
   t!"Lindsey", t!"Lindsy", t!"Lindy", t!"Linea", t!"Linell", t!"Linet", t!"Linette", t!"Linn",
   t!"Linnea", t!"Linnell", t!"Linnet", t!"Linnie", t!"Linzy", t!"Liora", t!"Liorah", t!"Lira",
   t!"Lisa", t!"Lisabeth", t!"Lisandra", t!"Lisbeth", t!"Lise", t!"Lisetta", t!"Lisette",
   t!"Lisha", t!"Lishe", t!"Lissa", t!"Lissi", t!"Lissie", t!"Lissy", t!"Lita", t!"Liuka",
   t!"Livia", t!"Liz", t!"Liza", t!"Lizabeth", t!"Lizbeth", t!"Lizette", t!"Lizzie", t!"Lizzy",
   t!"Loella", t!"Lois", t!"Loise", t!"Lola", t!"Lolande", t!"Loleta", t!"Lolita", t!"Lolly",
   t!"Lona", t!"Lonee", t!"Loni", t!"Lonna", t!"Lonni", t!"Lonnie", t!"Lora", t!"Lorain",
   t!"Loraine"]

/-- `roman/female.tsv`, part 48. -/
def femaleNames48 : List Str :=
  [t!"Loralee", t!"Loralie", t!"Loralyn", t!"Loree", t!"Loreen", t!"Lorelei", t!"Lorelle",
   t!"Loren", t!"Lorena", t!"Lorene", t!"Lorenza", t!"Loretta", t!"Lorettalorna", t!"Lorette",
   t!"Lori", t!"Loria", t!"Lorianna", t!"Lorianne", t!"Lorie", t!"Lorilee", t!"Lorilyn",
   t!"Lorinda", t!"Lorine", t!"Lorita", t!"Lorna", t!"Lorne", t!"Lorraine", t!"Lorrayne",
   t!"Lorri", t!"Lorrie", t!"Lorrin", t!"Lorry", t!"Lory", t!"Lotta", t!"Lotte", t!"Lotti",
   t!"Lottie", t!"Lotty", t!"Lou", t!"Louella", t!"Louisa", t!"Louise", t!"Louisette",
   t!"Love", t!"Luana", t!"Luanna", t!"Luce", t!"Luci", t!"Lucia", t!"Luciana", t!"Lucie",
   t!"Lucienne", t!"Lucila", t!"Lucilia", t!"Lucille", t!"Lucina", t!"Lucinda", t!"Lucine",
   t!"Lucita", t!"Lucky", t!"Lucretia", t!"Lucy", t!"Luella", t!"Luelle"]

/-- `roman/female.tsv`, part 49. -/
def femaleNames49 : List Str :=
  [t!"Luisa", t!"Luise", t!"Lula", t!"Lulita", t!"Lulu", t!"Luna", t!"Lura", t!"Lurette",
   t!"Lurleen", t!"Lurlene", t!"Lurline", t!"Lusa", t!"Lust", t!"Lyda", t!"Lydia", t!"Lydie",
   t!"Lyn", t!"Lynda", t!"Lynde", t!"Lyndel", t!"Lyndell", t!"Lyndsay", t!"Lyndsey",
   t!"Lyndsie", t!"Lyndy", t!"Lynea", t!"Lynelle", t!"Lynett", t!"Lynette", t!"Lynn",
   t!"Lynna", t!"Lynne", t!"Lynnea", t!"Lynnell", t!"Lynnelle", t!"Lynnet", t!"Lynnett",
   t!"Lynnette", t!"Lynsey", t!"Lysandra", t!"Lyssa", t!"Mab", t!"Mabel", t!"Mabelle",
   t!"Mable", t!"Mada", t!"Madalena", t!"Madalyn", t!"Maddalena", t!"Maddi", t!"Maddie",
   t!"Maddy", t!"Madel", t!"Madelaine", t!"Madeleine", t!"Madelena", t!"Madelene", t!"Madelin",
   t!"Madelina", t!"Madeline", t!"Madella", t!"Madelle", t!"Madelon", t!"Madelyn"]

/-- `roman/female.tsv`, part 50. -/
def femaleNames50 : List Str :=
  [t!"Madge", t!"Madlen", t!"Madlin", t!"Madona", t!"Madonna", t!"Mady", t!"Mae", t!"Maegan",
   t!"Mag", t!"Magda", t!"Magdaia", t!"Magdalen", t!"Magdalena", t!"Magdalene", t!"Maggee",
   t!"Maggi", t!"Maggie", t!"Maggy", t!"Magna", t!"Mahala", t!"Mahalia", t!"Maia", t!"Maible",
   t!"Maiga", t!"Mair", t!"Maire", t!"Mairead", t!"Maisey", t!"Maisie", t!"Mala", t!"Malanie",
   t!"Malcah", t!"Malena", t!"Malia", t!"Malina", t!"Malinda", t!"Malinde", t!"Malissa",
   t!"Malissia", t!"Malka", t!"Malkah", t!"Mallissa", t!"Mallorie", t!"Mallory", t!"Malorie",
   t!"Malory", t!"Malva", t!"Malvina", t!"Malynda", t!"Mame", t!"Mamie", t!"Manda", t!"Mandi",
   t!"Mandie", t!"Mandy", t!"Manon", t!"Manya", t!"Mara", t!"Marabel", t!"Marcela",
   t!"Marcelia", t!"Marcella", t!"Marcelle", t!"Marcellina"]

/-- `roman/female.tsv`, part 51. -/
def femaleNames51 : List Str :=
  [t!"Marcelline", t!"Marchelle", t!"Marci", t!"Marcia", t!"Marcie", t!"Marcile", t!"Marcille",
   t!"Marcy", t!"Mareah", t!"Maren", t!"Marena", t!"Maressa", t!"Marga", t!"Margalit",
   t!"Margalo", t!"Margaret", t!"Margareta", t!"Margarete", t!"Margaretha", t!"Margarethe",
   t!"Margaretta", t!"Margarette", t!"Margarita", t!"Margaux", t!"Marge", t!"Margeaux",
   t!"Margery", t!"Marget", t!"Margette", t!"Margi", t!"Margie", t!"Margit", t!"Marglerite",
   t!"Margo", t!"Margot", t!"Margret", t!"Marguerite", t!"Margurite", t!"Margy", t!"Mari",
   t!"Maria", t!"Mariam", t!"Marian", t!"Mariana", t!"Mariann", t!"Marianna", t!"Marianne",
   t!"Maribel", t!"Maribelle", t!"Maribeth", t!"Marice", t!"Maridel", t!"Marie", t!"Marie-Ann",
   t!"Marie-Jeanne", t!"Marieann", t!"Mariejeanne", t!"Mariel", t!"Mariele", t!"Marielle",
   t!"Mariellen", t!"Marietta", t!"Mariette", t!"Marigold"]

/-- `roman/female.tsv`, part 52. -/
def femaleNames52 : List Str :=
  [t!"Marijo", t!"Marika", t!"Marilee", t!"Marilin", t!"Marillin", t!"Marilyn", t!"Marin",
   t!"Marina", t!"Marinna", t!"Marion", t!"Mariquilla", t!"Maris", t!"Marisa", t!"Mariska",
   t!"Marissa", t!"Marit", t!"Marita", t!"Maritsa", t!"Mariya", t!"Marj", t!"Marja", t!"Marje",
   t!"Marji", t!"Marjie", t!"Marjorie", t!"Marjory", t!"Marjy", t!"Marketa", t!"Marla",
   t!"Marlane", t!"Marleah", t!"Marlee", t!"Marleen", t!"Marlena", t!"Marlene", t!"Marley",
   t!"Marlie", t!"Marline", t!"Marlo", t!"Marlyn", t!"Marna", t!"Marne", t!"Marney", t!"Marni",
   t!"Marnia", t!"Marnie", t!"Marquita", t!"Marrilee", t!"Marris", t!"Marrissa", t!"Marry",
   t!"Marsha", t!"Marsiella", t!"Marta", t!"Martelle", t!"Martguerita", t!"Martha", t!"Marthe",
   t!"Marthena", t!"Marti", t!"Martica", t!"Martie", t!"Martina", t!"Martita"]

/-- `roman/female.tsv`, part 53. -/
def femaleNames53 : List Str :=
  [t!"Marty", t!"Martynne", t!"Mary", t!"Marya", t!"Maryangelyn", t!"Maryann", t!"Maryanna",
   t!"Maryanne", t!"Marybelle", t!"Marybeth", t!"Maryellen", t!"Maryjane", t!"Maryjo",
   t!"Maryl", t!"Marylee", t!"Marylin", t!"Marylinda", t!"Marylou", t!"Marylynne",
   t!"Maryrose", t!"Marys", t!"Marysa", t!"Masha", t!"Matelda", t!"Mathilda", t!"Mathilde",
   t!"Matilda", t!"Matilde", t!"Matti", t!"Mattie", t!"Matty", t!"Maud", t!"Maude", t!"Maudie",
   t!"Maura", t!"Maure", t!"Maureen", t!"Maureene", t!"Maurene", t!"Maurine", t!"Maurise",
   t!"Maurita", t!"Mavis", t!"Mavra", t!"Max", t!"Maxi", t!"Maxie", t!"Maxine", t!"Maxy",
   t!"Maya", t!"Maybelle", t!"Mayda", t!"Maye", t!"Mead", t!"Meade", t!"Meagan", t!"Meaghan",
   t!"Meara", t!"Mechelle", t!"Meg", t!"Megan", t!"Megen", t!"Meggan", t!"Meggi"]

/-- `roman/female.tsv`, part 54. -/
def femaleNames54 : List Str :=
  [t!"Meggie", t!"Meggy", t!"Meghan", t!"Meghann", t!"Mehetabel", t!"Mei", t!"Meira", t!"Mel",
   t!"Mela", t!"Melamie", t!"Melania", t!"Melanie", t!"Melantha", t!"Melany", t!"Melba",
   t!"Melesa", t!"Melessa", t!"Melicent", t!"Melina", t!"Melinda", t!"Melinde", t!"Melisa",
   t!"Melisande", t!"Melisandra", t!"Melisenda", t!"Melisent", t!"Melissa", t!"Melisse",
   t!"Melita", t!"Melitta", t!"Mella", t!"Melli", t!"Mellicent", t!"Mellie", t!"Mellisa",
   t!"Mellisent", t!"Mellissa", t!"Melloney", t!"Melly", t!"Melodee", t!"Melodie", t!"Melody",
   t!"Melonie", t!"Melony", t!"Melosa", t!"Melva", t!"Mercedes", t!"Merci", t!"Mercie",
   t!"Mercy", t!"Meredith", t!"Meredithe", t!"Meridel", t!"Meridith", t!"Meriel", t!"Merilee",
   t!"Merilyn", t!"Meris", t!"Merissa", t!"Merl", t!"Merla", t!"Merle", t!"Merlina", t!"Merline"]

/-- `roman/female.tsv`, part 55. -/
def femaleNames55 : List Str :=
  [t!"Merna", t!"Merola", t!"Merralee", t!"Merridie", t!"Merrie", t!"Merrielle", t!"Merrile",
   t!"Merrilee", t!"Merrili", t!"Merrill", t!"Merrily", t!"Merry", t!"Mersey", t!"Meryl",
   t!"Meta", t!"Mia", t!"Micaela", t!"Michaela", t!"Michaelina", t!"Michaeline", t!"Michaella",
   t!"Michal", t!"Michel", t!"Michele", t!"Michelina", t!"Micheline", t!"Michell",
   t!"Michelle", t!"Micki", t!"Mickie", t!"Micky", t!"Midge", t!"Mignon", t!"Mignonne",
   t!"Miguela", t!"Miguelita", t!"Mildred", t!"Mildrid", t!"Milena", t!"Milicent",
   t!"Milissent", t!"Milka", t!"Milli", t!"Millicent", t!"Millie", t!"Millisent", t!"Milly",
   t!"Milzie", t!"Mimi", t!"Min", t!"Mina", t!"Minda", t!"Mindy", t!"Minerva", t!"Minetta",
   t!"Minette", t!"Minna", t!"Minni", t!"Minnie", t!"Minny", t!"Minta", t!"Miquela", t!"Mira",
   t!"Mirabel"]

/-- `roman/female.tsv`, part 56. -/
def femaleNames56 : List Str :=
  [t!"Mirabella", t!"Mirabelle", t!"Miran", t!"Miranda", t!"Mireielle", t!"Mireille",
   t!"Mirella", t!"Mirelle", t!"Miriam", t!"Mirilla", t!"Mirna", t!"Misha", t!"Missie",
   t!"Missy", t!"Misti", t!"Misty", t!"Mitra", t!"Mitzi", t!"Mmarianne", t!"Modesta",
   t!"Modestia", t!"Modestine", t!"Modesty", t!"Moina", t!"Moira", t!"Moll", t!"Mollee",
   t!"Molli", t!"Mollie", t!"Molly", t!"Mommy", t!"Mona", t!"Monah", t!"Monica", t!"Monika",
   t!"Monique", t!"Mora", t!"Moreen", t!"Morena", t!"Morgan", t!"Morgana", t!"Morganica",
   t!"Morganne", t!"Morgen", t!"Moria", t!"Morissa", t!"Morlee", t!"Morna", t!"Moselle",
   t!"Moya", t!"Moyna", t!"Moyra", t!"Mozelle", t!"Muffin", t!"Mufi", t!"Mufinella", t!"Muire",
   t!"Mureil", t!"Murial", t!"Muriel", t!"Murielle", t!"Myna", t!"Myra", t!"Myrah"]

/-- `roman/female.tsv`, part 57. -/
def femaleNames57 : List Str :=
  [t!"Myranda", t!"Myriam", t!"Myrilla", t!"Myrle", t!"Myrlene", t!"Myrna", t!"Myrta",
   t!"Myrtia", t!"Myrtice", t!"Myrtie", t!"Myrtle", t!"Nada", t!"Nadean", t!"Nadeen",
   t!"Nadia", t!"Nadine", t!"Nadiya", t!"Nady", t!"Nadya", t!"Nalani", t!"Nan", t!"Nana",
   t!"Nananne", t!"Nance", t!"Nancee", t!"Nancey", t!"Nanci", t!"Nancie", t!"Nancy",
   t!"Nanete", t!"Nanette", t!"Nani", t!"Nanice", t!"Nanine", t!"Nannette", t!"Nanni",
   t!"Nannie", t!"Nanny", t!"Nanon", t!"Naoma", t!"Naomi", t!"Nara", t!"Nari", t!"Nariko",
   t!"Nat", t!"Nata", t!"Natala", t!"Natalee", t!"Natalia", t!"Natalie", t!"Natalina",
   t!"Nataline", t!"Natalya", t!"Natasha", t!"Natassia", t!"Nathalia", t!"Nathalie", t!"Natka",
   t!"Natty", t!"Neala", t!"Neda", t!"Nedda", t!"Nedi", t!"Neely"]

/-- `roman/female.tsv`, part 58. -/
def femaleNames58 : List Str :=
  [t!"Neila", t!"Neile", t!"Neilla", t!"Neille", t!"Nela", t!"Nelia", t!"Nelie", t!"Nell",
   t!"Nelle", t!"Nelli", t!"Nellie", t!"Nelly", t!"Nena", t!"Nerissa", t!"Nerita", t!"Nert",
   t!"Nerta", t!"Nerte", t!"Nerti", t!"Nertie", t!"Nerty", t!"Nessa", t!"Nessi", t!"Nessie",
   t!"Nessy", t!"Nesta", t!"Netta", t!"Netti", t!"Nettie", t!"Nettle", t!"Netty", t!"Nevsa",
   t!"Neysa", t!"Nichol", t!"Nichole", t!"Nicholle", t!"Nicki", t!"Nickie", t!"Nicky",
   t!"Nicol", t!"Nicola", t!"Nicole", t!"Nicolea", t!"Nicolette", t!"Nicoli", t!"Nicolina",
   t!"Nicoline", t!"Nicolle", t!"Nidia", t!"Nike", t!"Niki", t!"Nikki", t!"Nikkie",
   t!"Nikoletta", t!"Nikolia", t!"Nil", t!"Nina", t!"Ninetta", t!"Ninette", t!"Ninnetta",
   t!"Ninnette", t!"Ninon", t!"Nisa", t!"Nissa"]

/-- `roman/female.tsv`, part 59. -/
def femaleNames59 : List Str :=
  [t!"Nisse", t!"Nissie", t!"Nissy", t!"Nita", t!"Nitin", t!"Nixie", t!"Noami", t!"Noel",
   t!"Noelani", t!"Noell", t!"Noella", t!"Noelle", t!"Noellyn", t!"Noelyn", t!"Noemi",
   t!"Nola", t!"Nolana", t!"Nolie", t!"Nollie", t!"Nomi", t!"Nona", t!"Nonah", t!"Noni",
   t!"Nonie", t!"Nonna", t!"Nonnah", t!"Nora", t!"Norah", t!"Norean", t!"Noreen", t!"Norene",
   t!"Norina", t!"Norine", t!"Norma", t!"Norri", t!"Norrie", t!"Norry", t!"Nova", t!"Novelia",
   t!"Nydia", t!"Nyssa", t!"Octavia", t!"Odele", t!"Odelia", t!"Odelinda", t!"Odella",
   t!"Odelle", t!"Odessa", t!"Odetta", t!"Odette", t!"Odilia", t!"Odille", t!"Ofelia",
   t!"Ofella", t!"Ofilia", t!"Ola", t!"Olenka", t!"Olga", t!"Olia", t!"Olimpia", t!"Olive",
   t!"Olivette", t!"Olivia", t!"Olivie"]

/-- `roman/female.tsv`, part 60. -/
def femaleNames60 : List Str :=
  [t!"Oliy", t!"Ollie", t!"Olly", t!"Olva", t!"Olwen", t!"Olympe", t!"Olympia", t!"Olympie",
   t!"Ondrea", t!"Oneida", t!"Onida", t!"Onlea", t!"Oona", t!"Opal", t!"Opalina", t!"Opaline",
   t!"Ophelia", t!"Ophelie", t!"Oprah", t!"Ora", t!"Oralee", t!"Oralia", t!"Oralie",
   t!"Oralla", t!"Oralle", t!"Orel", t!"Orelee", t!"Orelia", t!"Orelie", t!"Orella",
   t!"Orelle", t!"Oreste", t!"Oriana", t!"Orly", t!"Orsa", t!"Orsola", t!"Ortensia", t!"Otha",
   t!"Othelia", t!"Othella", t!"Othilia", t!"Othilie", t!"Ottilie", t!"Pacifica", t!"Page",
   t!"Paige", t!"Paloma", t!"Pam", t!"Pamela", t!"Pamelina", t!"Pamella", t!"Pammi",
   t!"Pammie", t!"Pammy", t!"Pandora", t!"Pansie", t!"Pansy", t!"Paola", t!"Paolina",
   t!"Parwane", t!"Pat", t!"Patience", t!"Patrica", t!"Patrice"]

/-- `roman/female.tsv`, part 61. -/
def femaleNames61 : List Str :=
  [t!"Patricia", t!"Patrizia", t!"Patsy", t!"Patti", t!"Pattie", t!"Patty", t!"Paula",
   t!"Paula-Grace", t!"Paule", t!"Pauletta", t!"Paulette", t!"Pauli", t!"Paulie", t!"Paulina",
   t!"Pauline", t!"Paulita", t!"Pauly", t!"Pavia", t!"Pavla", t!"Pearl", t!"Pearla",
   t!"Pearle", t!"Pearline", t!"Peg", t!"Pegeen", t!"Peggi", t!"Peggie", t!"Peggy", t!"Pen",
   t!"Penelopa", t!"Penelope", t!"Penni", t!"Pennie", t!"Penny", t!"Pepi", t!"Pepita",
   t!"Peri", t!"Peria", t!"Perl", t!"Perla", t!"Perle", t!"Perri", t!"Perrine", t!"Perry",
   t!"Persis", t!"Pet", t!"Peta", t!"Petra", t!"Petrina", t!"Petronella", t!"Petronia",
   t!"Petronilla", t!"Petronille", t!"Petunia", t!"Phaedra", t!"Phaidra", t!"Phebe",
   t!"Phedra", t!"Phelia", t!"Phil", t!"Philipa", t!"Philippa", t!"Philippe", t!"Philippine"]

/-- `roman/female.tsv`, part 62. -/
def femaleNames62 : List Str :=
  [t!"Philis", t!"Phillida", t!"Phillie", t!"Phillis", t!"Philly", t!"Philomena", t!"Phoebe",
   t!"Phylis", t!"Phyllida", t!"Phyllis", t!"Phyllys", t!"Phylys", t!"Pia", t!"Pier",
   t!"Pierette", t!"Pierrette", t!"Pietra", t!"Piper", t!"Pippa", t!"Pippy", t!"Polly",
   t!"Pollyanna", t!"Pooh", t!"Poppy", t!"Portia", t!"Pris", t!"Prisca", t!"Priscella",
   t!"Priscilla", t!"Prissie", t!"Pru", t!"Prudence", t!"Prudi", t!"Prudy", t!"Prue",
   t!"Prunella", t!"Queada", t!"Queenie", t!"Quentin", t!"Querida", t!"Quinn", t!"Quinta",
   t!"Quintana", t!"Quintilla", t!"Quintina", t!"Rachael", t!"Rachel", t!"Rachele",
   t!"Rachelle", t!"Rae", t!"Raf", t!"Rafa", t!"Rafaela", t!"Rafaelia", t!"Rafaelita",
   t!"Ragnhild", t!"Rahal", t!"Rahel", t!"Raina", t!"Raine", t!"Rakel", t!"Ralina", t!"Ramona",
   t!"Ramonda"]

/-- `roman/female.tsv`, part 63. -/
def femaleNames63 : List Str :=
  [t!"Rana", t!"Randa", t!"Randee", t!"Randene", t!"Randi", t!"Randie", t!"Randy", t!"Ranee",
   t!"Rani", t!"Rania", t!"Ranice", t!"Ranique", t!"Ranna", t!"Raphaela", t!"Raquel",
   t!"Raquela", t!"Rasia", t!"Rasla", t!"Raven", t!"Ray", t!"Raychel", t!"Raye", t!"Rayna",
   t!"Raynell", t!"Rayshell", t!"Rea", t!"Reba", t!"Rebbecca", t!"Rebe", t!"Rebeca",
   t!"Rebecca", t!"Rebecka", t!"Rebeka", t!"Rebekah", t!"Rebekkah", t!"Ree", t!"Reeba",
   t!"Reena", t!"Reeta", t!"Reeva", t!"Regan", t!"Reggi", t!"Reggie", t!"Regina", t!"Regine",
   t!"Reiko", t!"Reina", t!"Reine", t!"Remy", t!"Rena", t!"Renae", t!"Renata", t!"Renate",
   t!"Rene", t!"Renee", t!"Renel", t!"Renell", t!"Renelle", t!"Renie", t!"Rennie", t!"Reta",
   t!"Retha", t!"Revkah", t!"Rey"]

/-- `roman/female.tsv`, part 64. -/
def femaleNames64 : List Str :=
  [t!"Reyna", t!"Rhea", t!"Rheba", t!"Rheta", t!"Rhetta", t!"Rhiamon", t!"Rhianna",
   t!"Rhianon", t!"Rhoda", t!"Rhodia", t!"Rhodie", t!"Rhody", t!"Rhona", t!"Rhonda", t!"Riane",
   t!"Riannon", t!"Rianon", t!"Rica", t!"Ricca", t!"Rici", t!"Ricki", t!"Rickie", t!"Ricky",
   t!"Riki", t!"Rikki", t!"Rina", t!"Risa", t!"Rissa", t!"Rita", t!"Riva", t!"Rivalee",
   t!"Rivi", t!"Rivkah", t!"Rivy", t!"Roana", t!"Roanna", t!"Roanne", t!"Robbi", t!"Robbie",
   t!"Robbin", t!"Robby", t!"Robbyn", t!"Robena", t!"Robenia", t!"Roberta", t!"Robin",
   t!"Robina", t!"Robinet", t!"Robinett", t!"Robinetta", t!"Robinette", t!"Robinia", t!"Roby",
   t!"Robyn", t!"Roch", t!"Rochell", t!"Rochella", t!"Rochelle", t!"Rochette", t!"Roda",
   t!"Rodi", t!"Rodie", t!"Rodina", t!"Romola"]

/-- `roman/female.tsv`, part 65. -/
def femaleNames65 : List Str :=
  [t!"Romona", t!"Romonda", t!"Romy", t!"Rona", t!"Ronalda", t!"Ronda", t!"Ronica", t!"Ronna",
   t!"Ronni", t!"Ronnica", t!"Ronnie", t!"Ronny", t!"Roobbie", t!"Rora", t!"Rori", t!"Rorie",
   t!"Rory", t!"Ros", t!"Rosa", t!"Rosabel", t!"Rosabella", t!"Rosabelle", t!"Rosaleen",
   t!"Rosalia", t!"Rosalie", t!"Rosalind", t!"Rosalinda", t!"Rosalinde", t!"Rosaline",
   t!"Rosalyn", t!"Rosalynd", t!"Rosamond", t!"Rosamund", t!"Rosana", t!"Rosanna", t!"Rosanne",
   t!"Rosario", t!"Rose", t!"Roseann", t!"Roseanna", t!"Roseanne", t!"Roselia", t!"Roselin",
   t!"Roseline", t!"Rosella", t!"Roselle", t!"Roselyn", t!"Rosemaria", t!"Rosemarie",
   t!"Rosemary", t!"Rosemonde", t!"Rosene", t!"Rosetta", t!"Rosette", t!"Roshelle", t!"Rosie",
   t!"Rosina", t!"Rosita", t!"Roslyn", t!"Rosmunda", t!"Rosy", t!"Row", t!"Rowe", t!"Rowena"]

/-- `roman/female.tsv`, part 66. -/
def femaleNames66 : List Str :=
  [t!"Roxana", t!"Roxane", t!"Roxanna", t!"Roxanne", t!"Roxi", t!"Roxie", t!"Roxine", t!"Roxy",
   t!"Roz", t!"Rozalie", t!"Rozalin", t!"Rozamond", t!"Rozanna", t!"Rozanne", t!"Roze",
   t!"Rozele", t!"Rozella", t!"Rozelle", t!"Rozina", t!"Rubetta", t!"Rubi", t!"Rubia",
   t!"Rubie", t!"Rubina", t!"Ruby", t!"Ruella", t!"Ruperta", t!"Ruth", t!"Ruthann",
   t!"Ruthanne", t!"Ruthe", t!"Ruthi", t!"Ruthie", t!"Ruthy", t!"Ryann", t!"Rycca", t!"Saba",
   t!"Sabina", t!"Sabine", t!"Sabra", t!"Sabrina", t!"Sacha", t!"Sada", t!"Sadella", t!"Sadie",
   t!"Sal", t!"Sallee", t!"Salli", t!"Sallie", t!"Sally", t!"Sallyann", t!"Sallyanne",
   t!"Salome", t!"Sam", t!"Samantha", t!"Samara", t!"Samaria", t!"Sammy", t!"Samuela",
   t!"Samuella", t!"Sande", t!"Sandi", t!"Sandie", t!"Sandra"]

/-- `roman/female.tsv`, part 67. -/
def femaleNames67 : List Str :=
  [t!"Sandy", t!"Sandye", t!"Sapphira", t!"Sapphire", t!"Sara", t!"Sara-Ann", t!"Saraann",
   t!"Sarah", t!"Sarajane", t!"Saree", t!"Sarena", t!"Sarene", t!"Sarette", t!"Sari",
   t!"Sarina", t!"Sarine", t!"Sarita", t!"Sascha", t!"Sasha", t!"Sashenka", t!"Saudra",
   t!"Saundra", t!"Savina", t!"Sayre", t!"Scarlet", t!"Scarlett", t!"Scotty", t!"Sean",
   t!"Seana", t!"Secunda", t!"Seka", t!"Sela", t!"Selena", t!"Selene", t!"Selestina",
   t!"Selia", t!"Selie", t!"Selina", t!"Selinda", t!"Seline", t!"Sella", t!"Selle", t!"Selma",
   t!"Sena", t!"Sephira", t!"Serena", t!"Serene", t!"Shaina", t!"Shaine", t!"Shalna",
   t!"Shalne", t!"Shamit", t!"Shana", t!"Shanda", t!"Shandee", t!"Shandie", t!"Shandra",
   t!"Shandy", t!"Shane", t!"Shani", t!"Shanie", t!"Shanna", t!"Shannah", t!"Shannen"]

/-- `roman/female.tsv`, part 68. -/
def femaleNames68 : List Str :=
  [t!"Shannon", t!"Shanon", t!"Shanta", t!"Shantee", t!"Shara", t!"Sharai", t!"Shari",
   t!"Sharia", t!"Sharie", t!"Sharity", t!"Sharl", t!"Sharla", t!"Sharleen", t!"Sharlene",
   t!"Sharline", t!"Sharna", t!"Sharon", t!"Sharona", t!"Sharra", t!"Sharron", t!"Sharyl",
   t!"Shaun", t!"Shauna", t!"Shawn", t!"Shawna", t!"Shawnee", t!"Shay", t!"Shayla",
   t!"Shaylah", t!"Shaylyn", t!"Shaylynn", t!"Shayna", t!"Shayne", t!"Shea", t!"Sheba",
   t!"Sheela", t!"Sheelagh", t!"Sheelah", t!"Sheena", t!"Sheeree", t!"Sheila",
   t!"Sheila-Kathryn", t!"Sheilah", t!"Sheilakathryn", t!"Shel", t!"Shela", t!"Shelagh",
   t!"Shelba", t!"Shelbi", t!"Shelby", t!"Shelia", t!"Shell", t!"Shelley", t!"Shelli",
   t!"Shellie", t!"Shelly", t!"Shena", t!"Sher", t!"Sheree", t!"Sheri", t!"Sherie", t!"Sheril",
   t!"Sherill", t!"Sherilyn"]

/-- `roman/female.tsv`, part 69. -/
def femaleNames69 : List Str :=
  [t!"Sherline", t!"Sherri", t!"Sherrie", t!"Sherry", t!"Sherye", t!"Sheryl", t!"Shilpa",
   t!"Shina", t!"Shir", t!"Shira", t!"Shirah", t!"Shirl", t!"Shirlee", t!"Shirleen",
   t!"Shirlene", t!"Shirley", t!"Shirline", t!"Shoshana", t!"Shoshanna", t!"Shoshie",
   t!"Siana", t!"Sianna", t!"Sib", t!"Sibbie", t!"Sibby", t!"Sibeal", t!"Sibel", t!"Sibella",
   t!"Sibelle", t!"Sibilla", t!"Sibley", t!"Sibyl", t!"Sibylla", t!"Sibylle", t!"Sidoney",
   t!"Sidonia", t!"Sidonnie", t!"Sigrid", t!"Sile", t!"Sileas", t!"Silva", t!"Silvana",
   t!"Silvia", t!"Silvie", t!"Simona", t!"Simone", t!"Simonette", t!"Simonne", t!"Sindee",
   t!"Sinead", t!"Siobhan", t!"Sioux", t!"Siouxie", t!"Sisely", t!"Sisile", t!"Sissie",
   t!"Sissy", t!"Sofia", t!"Sofie", t!"Solange", t!"Sondra", t!"Sonia", t!"Sonja", t!"Sonni"]

/-- `roman/female.tsv`, part 70. -/
def femaleNames70 : List Str :=
  [t!"Sonnie", t!"Sonnnie", t!"Sonny", t!"Sonya", t!"Sophey", t!"Sophi", t!"Sophia",
   t!"Sophie", t!"Sophronia", t!"Sorcha", t!"Sosanna", t!"Stace", t!"Stacee", t!"Stacey",
   t!"Staci", t!"Stacia", t!"Stacie", t!"Stacy", t!"Stafani", t!"Star", t!"Starla",
   t!"Starlene", t!"Starlin", t!"Starr", t!"Stefa", t!"Stefania", t!"Stefanie", t!"Steffane",
   t!"Steffi", t!"Steffie", t!"Stella", t!"Stepha", t!"Stephana", t!"Stephani", t!"Stephanie",
   t!"Stephannie", t!"Stephenie", t!"Stephi", t!"Stephie", t!"Stephine", t!"Stesha",
   t!"Stevana", t!"Stevena", t!"Stoddard", t!"Storey", t!"Storm", t!"Stormi", t!"Stormie",
   t!"Stormy", t!"Sue", t!"Sue-elle", t!"Suellen", t!"Sukey", t!"Suki", t!"Sula", t!"Sunny",
   t!"Sunshine", t!"Susan", t!"Susana", t!"Susanetta", t!"Susann", t!"Susanna", t!"Susannah",
   t!"Susanne"]

/-- `roman/female.tsv`, part 71. -/
def femaleNames71 : List Str :=
  [t!"Susette", t!"Susi", t!"Susie", t!"Sussi", t!"Susy", t!"Suzan", t!"Suzann", t!"Suzanna",
   t!"Suzanne", t!"Suzetta", t!"Suzette", t!"Suzi", t!"Suzie", t!"Suzy", t!"Suzzy", t!"Sybil",
   t!"Sybila", t!"Sybilla", t!"Sybille", t!"Sybyl", t!"Sydel", t!"Sydelle", t!"Sydney",
   t!"Sylvia", t!"Sylvie", t!"Tabatha", t!"Tabbatha", t!"Tabbi", t!"Tabbie", t!"Tabbitha",
   t!"Tabby", t!"Tabina", t!"Tabitha", t!"Taffy", t!"Talia", t!"Tallia", t!"Tallie", t!"Tally",
   t!"Talya", t!"Talyah", t!"Tamar", t!"Tamara", t!"Tamarah", t!"Tamarra", t!"Tamera",
   t!"Tami", t!"Tamiko", t!"Tamma", t!"Tammara", t!"Tammi", t!"Tammie", t!"Tammy", t!"Tamra",
   t!"Tana", t!"Tandi", t!"Tandie", t!"Tandy", t!"Tani", t!"Tania", t!"Tansy", t!"Tanya",
   t!"Tara", t!"Tarah", t!"Tarra"]

/-- `roman/female.tsv`, part 72. -/
def femaleNames72 : List Str :=
  [t!"Tarrah", t!"Taryn", t!"Tasha", t!"Tasia", t!"Tate", t!"Tatiana", t!"Tatiania", t!"Tatum",
   t!"Tawnya", t!"Tawsha", t!"Teane", t!"Ted", t!"Tedda", t!"Teddi", t!"Teddie", t!"Teddy",
   t!"Tedi", t!"Tedra", t!"Teena", t!"Tella", t!"Teodora", t!"Tera", t!"Teresa",
   t!"TeresaAnne", t!"Terese", t!"Teresina", t!"Teresita", t!"Teressa", t!"Teri", t!"Teriann",
   t!"Terina", t!"Terra", t!"Terri", t!"Terri-Jo", t!"Terrianne", t!"Terrie", t!"Terry",
   t!"Terrye", t!"Tersina", t!"Teryl", t!"Terza", t!"Tess", t!"Tessa", t!"Tessi", t!"Tessie",
   t!"Tessy", t!"Thalia", t!"Thea", t!"Theada", t!"Theadora", t!"Theda", t!"Thekla",
   t!"Thelma", t!"Theo", t!"Theodora", t!"Theodosia", t!"Theresa", t!"Theresa-Marie",
   t!"Therese", t!"Theresina", t!"Theresita", t!"Theressa", t!"Therine", t!"Thia"]

/-- `roman/female.tsv`, part 73. -/
def femaleNames73 : List Str :=
  [t!"Thomasa", t!"Thomasin", t!"Thomasina", t!"Thomasine", t!"Tia", t!"Tiana", t!"Tiena",
   t!"Tierney", t!"Tiertza", t!"Tiff", t!"Tiffani", t!"Tiffanie", t!"Tiffany", t!"Tiffi",
   t!"Tiffie", t!"Tiffy", t!"Tilda", t!"Tildi", t!"Tildie", t!"Tildy", t!"Tillie", t!"Tilly",
   t!"Tim", t!"Timi", t!"Timmi", t!"Timmie", t!"Timmy", t!"Timothea", t!"Tina", t!"Tine",
   t!"Tiphani", t!"Tiphanie", t!"Tiphany", t!"Tish", t!"Tisha", t!"Tobe", t!"Tobey", t!"Tobi",
   t!"Tobie", t!"Toby", t!"Tobye", t!"Toinette", t!"Toma", t!"Tomasina", t!"Tomasine",
   t!"Tomi", t!"Tomiko", t!"Tommi", t!"Tommie", t!"Tommy", t!"Toni", t!"Tonia", t!"Tonie",
   t!"Tony", t!"Tonya", t!"Tootsie", t!"Torey", t!"Tori", t!"Torie", t!"Torrie", t!"Tory",
   t!"Tova", t!"Tove", t!"Trace"]

/-- `roman/female.tsv`, part 74. -/
def femaleNames74 : List Str :=
  [t!"Tracee", t!"Tracey", t!"Traci", t!"Tracie", t!"Tracy", t!"Trenna", t!"Tresa",
   t!"Trescha", t!"Tressa", t!"Tricia", t!"Trina", t!"Trish", t!"Trisha", t!"Trista", t!"Trix",
   t!"Trixi", t!"Trixie", t!"Trixy", t!"Truda", t!"Trude", t!"Trudey", t!"Trudi", t!"Trudie",
   t!"Trudy", t!"Trula", t!"Tuesday", t!"Twila", t!"Twyla", t!"Tybi", t!"Tybie", t!"Tyne",
   t!"Ula", t!"Ulla", t!"Ulrica", t!"Ulrika", t!"Ulrike", t!"Umeko", t!"Una", t!"Ursa",
   t!"Ursala", t!"Ursola", t!"Ursula", t!"Ursulina", t!"Ursuline", t!"Uta", t!"Val",
   t!"Valaree", t!"Valaria", t!"Vale", t!"Valeda", t!"Valencia", t!"Valene", t!"Valenka",
   t!"Valentia", t!"Valentina", t!"Valentine", t!"Valera", t!"Valeria", t!"Valerie",
   t!"Valery", t!"Valerye", t!"Valida", t!"Valina", t!"Valli"]

/-- `roman/female.tsv`, part 75. -/
def femaleNames75 : List Str :=
  [t!"Vallie", t!"Vally", t!"Valma", t!"Valry", t!"Van", t!"Vanda", t!"Vanessa", t!"Vania",
   t!"Vanna", t!"Vanni", t!"Vannie", t!"Vanny", t!"Vanya", t!"Veda", t!"Velma", t!"Velvet",
   t!"Vena", t!"Venita", t!"Ventura", t!"Venus", t!"Vera", t!"Veradis", t!"Vere", t!"Verena",
   t!"Verene", t!"Veriee", t!"Verile", t!"Verina", t!"Verine", t!"Verla", t!"Verna",
   t!"Vernice", t!"Veronica", t!"Veronika", t!"Veronike", t!"Veronique", t!"Vi", t!"Vicki",
   t!"Vickie", t!"Vicky", t!"Victoria", t!"Vida", t!"Viki", t!"Vikki", t!"Vikkie", t!"Vikky",
   t!"Vilhelmina", t!"Vilma", t!"Vin", t!"Vina", t!"Vinita", t!"Vinni", t!"Vinnie", t!"Vinny",
   t!"Viola", t!"Violante", t!"Viole", t!"Violet", t!"Violetta", t!"Violette", t!"Virgie",
   t!"Virgina", t!"Virginia", t!"Virginie"]

/-- `roman/female.tsv`, part 76. -/
def femaleNames76 : List Str :=
  [t!"Vita", t!"Vitia", t!"Vitoria", t!"Vittoria", t!"Viv", t!"Viva", t!"Vivi", t!"Vivia",
   t!"Vivian", t!"Viviana", t!"Vivianna", t!"Vivianne", t!"Vivie", t!"Vivien", t!"Viviene",
   t!"Vivienne", t!"Viviyan", t!"Vivyan", t!"Vivyanne", t!"Vonni", t!"Vonnie", t!"Vonny",
   t!"Wallie", t!"Wallis", t!"Wally", t!"Waly", t!"Wanda", t!"Wandie", t!"Wandis", t!"Waneta",
   t!"Wenda", t!"Wendeline", t!"Wendi", t!"Wendie", t!"Wendy", t!"Wenona", t!"Wenonah",
   t!"Whitney", t!"Wileen", t!"Wilhelmina", t!"Wilhelmine", t!"Wilie", t!"Willa",
   t!"Willabella", t!"Willamina", t!"Willetta", t!"Willette", t!"Willi", t!"Willie",
   t!"Willow", t!"Willy", t!"Willyt", t!"Wilma", t!"Wilmette", t!"Wilona", t!"Wilone",
   t!"Wilow", t!"Windy", t!"Wini", t!"Winifred", t!"Winna", t!"Winnah", t!"Winne", t!"Winni"]

/-- `roman/female.tsv`, part 77. -/
def femaleNames77 : List Str :=
  [t!"Winnie", t!"Winnifred", t!"Winny", t!"Winona", t!"Winonah", t!"Wren", t!"Wrennie",
   t!"Wylma", t!"Wynn", t!"Wynne", t!"Wynnie", t!"Wynny", t!"Xaviera", t!"Xena", t!"Xenia",
   t!"Xylia", t!"Xylina", t!"Yalonda", t!"Yehudit", t!"Yelena", t!"Yetta", t!"Yettie",
   t!"Yetty", t!"Yevette", t!"Yoko", t!"Yolanda", t!"Yolande", t!"Yolane", t!"Yolanthe",
   t!"Yonina", t!"Yoshi", t!"Yoshiko", t!"Yovonnda", t!"Yvette", t!"Yvonne", t!"Zabrina",
   t!"Zahara", t!"Zandra", t!"Zaneta", t!"Zara", t!"Zarah", t!"Zaria", t!"Zarla", t!"Zea",
   t!"Zelda", t!"Zelma", t!"Zena", t!"Zenia", t!"Zia", t!"Zilvia", t!"Zita", t!"Zitella",
   t!"Zoe", t!"Zola", t!"Zonda", t!"Zondra", t!"Zonnya", t!"Zora", t!"Zorah", t!"Zorana",
   t!"Zorina", t!"Zorine", t!"Zsa Zsa", t!"Zsazsa"]

/-- `roman/female.tsv`, part 78. -/
def femaleNames78 : List Str :=
  [t!"Zulema", t!"Zuzana", t!"Mikako", t!"Kaari", t!"Gita", t!"Geeta"]

/-- `roman/female.tsv`. -/
def femaleNames : List Str :=
  femaleNames0 ++ femaleNames1 ++ femaleNames2 ++ femaleNames3 ++ femaleNames4 ++ femaleNames5 ++ femaleNames6 ++ femaleNames7 ++
  femaleNames8 ++ femaleNames9 ++ femaleNames10 ++ femaleNames11 ++ femaleNames12 ++ femaleNames13 ++ femaleNames14 ++ femaleNames15 ++
  femaleNames16 ++ femaleNames17 ++ femaleNames18 ++ femaleNames19 ++ femaleNames20 ++ femaleNames21 ++ femaleNames22 ++ femaleNames23 ++
  femaleNames24 ++ femaleNames25 ++ femaleNames26 ++ femaleNames27 ++ femaleNames28 ++ femaleNames29 ++ femaleNames30 ++ femaleNames31 ++
  femaleNames32 ++ femaleNames33 ++ femaleNames34 ++ femaleNames35 ++ femaleNames36 ++ femaleNames37 ++ femaleNames38 ++ femaleNames39 ++
  femaleNames40 ++ femaleNames41 ++ femaleNames42 ++ femaleNames43 ++ femaleNames44 ++ femaleNames45 ++ femaleNames46 ++ femaleNames47 ++
  femaleNames48 ++ femaleNames49 ++ femaleNames50 ++ femaleNames51 ++ femaleNames52 ++ femaleNames53 ++ femaleNames54 ++ femaleNames55 ++
  femaleNames56 ++ femaleNames57 ++ femaleNames58 ++ femaleNames59 ++ femaleNames60 ++ femaleNames61 ++ femaleNames62 ++ femaleNames63 ++
  femaleNames64 ++ femaleNames65 ++ femaleNames66 ++ femaleNames67 ++ femaleNames68 ++ femaleNames69 ++ femaleNames70 ++ femaleNames71 ++
  femaleNames72 ++ femaleNames73 ++ femaleNames74 ++ femaleNames75 ++ femaleNames76 ++ femaleNames77 ++ femaleNames78

end Verif.EnTn
