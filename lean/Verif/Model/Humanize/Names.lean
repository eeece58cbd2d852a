import Verif.Go.Map
import Verif.Go.Texts
import Verif.Model.Humanize.Locales
/-!
# The names of languages

/repo/humanize/helper.go:14-35, /repo/humanize/helper_table.go, and a transcription of the names of languages in `django.po` of
each directory of /repo/humanize/locale.
-/
namespace Verif.Model.Humanize
open Verif.Go

/-- /repo/humanize/helper_table.go:3-7 `LocaleInfo`. -/
structure LocaleInfo where
  code : Bytes
  name : Bytes
  nameLocal : Bytes
  deriving DecidableEq

/-- /repo/humanize/helper_table.go:9-510 `LocaleInfos`. -/
def localeInfos : GoMap Bytes LocaleInfo := [
  (t!"af", ⟨t!"af", t!"Afrikaans", t!"Afrikaans"⟩),
  (t!"ar", ⟨t!"ar", t!"Arabic", t!"العربيّة"⟩),
  (t!"ar-dz", ⟨t!"ar-dz", t!"Algerian Arabic", t!"العربية الجزائرية"⟩),
  (t!"ast", ⟨t!"ast", t!"Asturian", t!"asturianu"⟩),
  (t!"az", ⟨t!"az", t!"Azerbaijani", t!"Azərbaycanca"⟩),
  (t!"be", ⟨t!"be", t!"Belarusian", t!"беларуская"⟩),
  (t!"bg", ⟨t!"bg", t!"Bulgarian", t!"български"⟩),
  (t!"bn", ⟨t!"bn", t!"Bengali", t!"বাংলা"⟩),
  (t!"br", ⟨t!"br", t!"Breton", t!"brezhoneg"⟩),
  (t!"bs", ⟨t!"bs", t!"Bosnian", t!"bosanski"⟩),
  (t!"ca", ⟨t!"ca", t!"Catalan", t!"català"⟩),
  (t!"ckb", ⟨t!"ckb", t!"Central Kurdish (Sorani)", t!"کوردی"⟩),
  (t!"cs", ⟨t!"cs", t!"Czech", t!"česky"⟩),
  (t!"cy", ⟨t!"cy", t!"Welsh", t!"Cymraeg"⟩),
  (t!"da", ⟨t!"da", t!"Danish", t!"dansk"⟩),
  (t!"de", ⟨t!"de", t!"German", t!"Deutsch"⟩),
  (t!"dsb", ⟨t!"dsb", t!"Lower Sorbian", t!"dolnoserbski"⟩),
  (t!"el", ⟨t!"el", t!"Greek", t!"Ελληνικά"⟩),
  (t!"en", ⟨t!"en", t!"English", t!"English"⟩),
  (t!"en-au", ⟨t!"en-au", t!"Australian English", t!"Australian English"⟩),
  (t!"en-gb", ⟨t!"en-gb", t!"British English", t!"British English"⟩),
  (t!"eo", ⟨t!"eo", t!"Esperanto", t!"Esperanto"⟩),
  (t!"es", ⟨t!"es", t!"Spanish", t!"español"⟩),
  (t!"es-ar", ⟨t!"es-ar", t!"Argentinian Spanish", t!"español de Argentina"⟩),
  (t!"es-co", ⟨t!"es-co", t!"Colombian Spanish", t!"español de Colombia"⟩),
  (t!"es-mx", ⟨t!"es-mx", t!"Mexican Spanish", t!"español de Mexico"⟩),
  (t!"es-ni", ⟨t!"es-ni", t!"Nicaraguan Spanish", t!"español de Nicaragua"⟩),
  (t!"es-ve", ⟨t!"es-ve", t!"Venezuelan Spanish", t!"español de Venezuela"⟩),
  (t!"et", ⟨t!"et", t!"Estonian", t!"eesti"⟩),
  (t!"eu", ⟨t!"eu", t!"Basque", t!"Basque"⟩),
  (t!"fa", ⟨t!"fa", t!"Persian", t!"فارسی"⟩),
  (t!"fi", ⟨t!"fi", t!"Finnish", t!"suomi"⟩),
  (t!"fr", ⟨t!"fr", t!"French", t!"français"⟩),
  (t!"fy", ⟨t!"fy", t!"Frisian", t!"frysk"⟩),
  (t!"ga", ⟨t!"ga", t!"Irish", t!"Gaeilge"⟩),
  (t!"gd", ⟨t!"gd", t!"Scottish Gaelic", t!"Gàidhlig"⟩),
  (t!"gl", ⟨t!"gl", t!"Galician", t!"galego"⟩),
  (t!"he", ⟨t!"he", t!"Hebrew", t!"עברית"⟩),
  (t!"hi", ⟨t!"hi", t!"Hindi", t!"हिंदी"⟩),
  (t!"hr", ⟨t!"hr", t!"Croatian", t!"Hrvatski"⟩),
  (t!"hsb", ⟨t!"hsb", t!"Upper Sorbian", t!"hornjoserbsce"⟩),
  (t!"hu", ⟨t!"hu", t!"Hungarian", t!"Magyar"⟩),
  (t!"hy", ⟨t!"hy", t!"Armenian", t!"հայերեն"⟩),
  (t!"ia", ⟨t!"ia", t!"Interlingua", t!"Interlingua"⟩),
  (t!"io", ⟨t!"io", t!"Ido", t!"ido"⟩),
  (t!"id", ⟨t!"id", t!"Indonesian", t!"Bahasa Indonesia"⟩),
  (t!"ig", ⟨t!"ig", t!"Igbo", t!"Asụsụ Ìgbò"⟩),
  (t!"is", ⟨t!"is", t!"Icelandic", t!"Íslenska"⟩),
  (t!"it", ⟨t!"it", t!"Italian", t!"italiano"⟩),
  (t!"ja", ⟨t!"ja", t!"Japanese", t!"日本語"⟩),
  (t!"ka", ⟨t!"ka", t!"Georgian", t!"ქართული"⟩),
  (t!"kab", ⟨t!"kab", t!"Kabyle", t!"taqbaylit"⟩),
  (t!"kk", ⟨t!"kk", t!"Kazakh", t!"Қазақ"⟩),
  (t!"km", ⟨t!"km", t!"Khmer", t!"Khmer"⟩),
  (t!"kn", ⟨t!"kn", t!"Kannada", t!"Kannada"⟩),
  (t!"ko", ⟨t!"ko", t!"Korean", t!"한국어"⟩),
  (t!"ky", ⟨t!"ky", t!"Kyrgyz", t!"Кыргызча"⟩),
  (t!"lb", ⟨t!"lb", t!"Luxembourgish", t!"Lëtzebuergesch"⟩),
  (t!"lt", ⟨t!"lt", t!"Lithuanian", t!"Lietuviškai"⟩),
  (t!"lv", ⟨t!"lv", t!"Latvian", t!"latviešu"⟩),
  (t!"mk", ⟨t!"mk", t!"Macedonian", t!"Македонски"⟩),
  (t!"ml", ⟨t!"ml", t!"Malayalam", t!"മലയാളം"⟩),
  (t!"mn", ⟨t!"mn", t!"Mongolian", t!"Mongolian"⟩),
  (t!"mr", ⟨t!"mr", t!"Marathi", t!"मराठी"⟩),
  (t!"ms", ⟨t!"ms", t!"Malay", t!"Bahasa Melayu"⟩),
  (t!"my", ⟨t!"my", t!"Burmese", t!"မြန်မာဘာသာ"⟩),
  (t!"nb", ⟨t!"nb", t!"Norwegian Bokmal", t!"norsk (bokmål)"⟩),
  (t!"ne", ⟨t!"ne", t!"Nepali", t!"नेपाली"⟩),
  (t!"nl", ⟨t!"nl", t!"Dutch", t!"Nederlands"⟩),
  (t!"nn", ⟨t!"nn", t!"Norwegian Nynorsk", t!"norsk (nynorsk)"⟩),
  (t!"no", ⟨t!"no", t!"Norwegian", t!"norsk"⟩),
  (t!"os", ⟨t!"os", t!"Ossetic", t!"Ирон"⟩),
  (t!"pa", ⟨t!"pa", t!"Punjabi", t!"Punjabi"⟩),
  (t!"pl", ⟨t!"pl", t!"Polish", t!"polski"⟩),
  (t!"pt", ⟨t!"pt", t!"Portuguese", t!"Português"⟩),
  (t!"pt-br", ⟨t!"pt-br", t!"Brazilian Portuguese", t!"Português Brasileiro"⟩),
  (t!"ro", ⟨t!"ro", t!"Romanian", t!"Română"⟩),
  (t!"ru", ⟨t!"ru", t!"Russian", t!"Русский"⟩),
  (t!"sk", ⟨t!"sk", t!"Slovak", t!"Slovensky"⟩),
  (t!"sl", ⟨t!"sl", t!"Slovenian", t!"Slovenščina"⟩),
  (t!"sq", ⟨t!"sq", t!"Albanian", t!"shqip"⟩),
  (t!"sr", ⟨t!"sr", t!"Serbian", t!"српски"⟩),
  (t!"sr-latn", ⟨t!"sr-latn", t!"Serbian Latin", t!"srpski (latinica)"⟩),
  (t!"sv", ⟨t!"sv", t!"Swedish", t!"svenska"⟩),
  (t!"sw", ⟨t!"sw", t!"Swahili", t!"Kiswahili"⟩),
  (t!"ta", ⟨t!"ta", t!"Tamil", t!"தமிழ்"⟩),
  (t!"te", ⟨t!"te", t!"Telugu", t!"తెలుగు"⟩),
  (t!"tg", ⟨t!"tg", t!"Tajik", t!"тоҷикӣ"⟩),
  (t!"th", ⟨t!"th", t!"Thai", t!"ภาษาไทย"⟩),
  (t!"tk", ⟨t!"tk", t!"Turkmen", t!"Türkmençe"⟩),
  (t!"tr", ⟨t!"tr", t!"Turkish", t!"Türkçe"⟩),
  (t!"tt", ⟨t!"tt", t!"Tatar", t!"Татарча"⟩),
  (t!"udm", ⟨t!"udm", t!"Udmurt", t!"Удмурт"⟩),
  (t!"ug", ⟨t!"ug", t!"Uyghur", t!"ئۇيغۇرچە"⟩),
  (t!"uk", ⟨t!"uk", t!"Ukrainian", t!"Українська"⟩),
  (t!"ur", ⟨t!"ur", t!"Urdu", t!"اردو"⟩),
  (t!"uz", ⟨t!"uz", t!"Uzbek", t!"oʻzbek tili"⟩),
  (t!"vi", ⟨t!"vi", t!"Vietnamese", t!"Tiếng Việt"⟩),
  (t!"zh-hans", ⟨t!"zh-hans", t!"Simplified Chinese", t!"简体中文"⟩),
  (t!"zh-hant", ⟨t!"zh-hant", t!"Traditional Chinese", t!"繁體中文"⟩)]

/-- /repo/humanize/helper.go:17-19 `LanguageName`. -/
def languageName (loc : Loc) (lang : Bytes) : Bytes := loc.get lang

/-- /repo/humanize/helper.go:29-35 `LanguageNameByCode`. -/
def languageNameByCode (loc : Loc) (code : Bytes) : Bytes :=
  match localeInfos.get? code with
  | none => []
  | some info => loc.get info.name

/-- The translations of the names of `localeInfos`, in the same order; empty where there is none. -/
structure Names where
  locale : Shipped
  names : List Bytes

/-- /repo/humanize/locale/af/django.po. -/
def names_af : Names where
  locale := loc_af
  names := [
    t!"Afrikaans", t!"Arabies", t!"Algeriese Arabies", t!"Asturies", t!"Aserbeidjans", t!"Wit-Russies", t!"Bulgaars",
    t!"Bengali", t!"Bretons", t!"Bosnies", t!"Katalaans", t!"", t!"Tsjeggies", t!"Wallies", t!"Deens", t!"Duits",
    t!"Neder-Sorbies", t!"Grieks", t!"Engels", t!"Australiese Engels", t!"Britse Engels", t!"Esperanto", t!"Spaans",
    t!"Argentynse Spaans", t!"Kolombiaanse Spaans", t!"Meksikaanse Spaans", t!"Nicaraguaanse Spaans",
    t!"Venezolaanse Spaans", t!"Estnies", t!"Baskies", t!"Persies", t!"Fins", t!"Fraans", t!"Fries", t!"Iers",
    t!"Skots-Gaelies", t!"Galicies", t!"Hebreeus", t!"Hindoe", t!"Kroaties", t!"Opper-Sorbies", t!"Hongaars", t!"Armeens",
    t!"Interlingua", t!"Ido", t!"Indonesies", t!"", t!"Yslands", t!"Italiaans", t!"Japannees", t!"Georgian", t!"Kabilies",
    t!"Kazakh", t!"Khmer", t!"Kannada", t!"Koreaans", t!"", t!"Luxemburgs", t!"Litaus", t!"Lets", t!"Macedonies",
    t!"Malabaars", t!"Mongools", t!"Marathi", t!"Maleisies", t!"Birmaans", t!"", t!"Nepalees", t!"Nederlands",
    t!"Noorweegse Nynorsk", t!"", t!"Osseties", t!"Punjabi", t!"Pools", t!"Portugees", t!"Brasiliaanse Portugees",
    t!"Roemeens", t!"Russiese", t!"Slowaaks", t!"Sloweens", t!"Albanees", t!"Serwies", t!"Serwies Latyns", t!"Sweeds",
    t!"Swahili", t!"Tamil", t!"Teloegoe", t!"", t!"Thai", t!"", t!"Turks", t!"Tataars", t!"Oedmoerts", t!"", t!"Oekraïens",
    t!"Oerdoe", t!"Oesbekies ", t!"Viëtnamees", t!"Vereenvoudigde Sjinees", t!"Tradisionele Sjinees"]

/-- /repo/humanize/locale/ar/django.po. -/
def names_ar : Names where
  locale := loc_ar
  names := [
    t!"الإفريقية", t!"العربيّة", t!"عربي جزائري", t!"الأسترية", t!"الأذربيجانية", t!"البيلاروسية", t!"البلغاريّة",
    t!"البنغاليّة", t!"البريتونية", t!"البوسنيّة", t!"الكتلانيّة", t!"", t!"التشيكيّة", t!"الويلز", t!"الدنماركيّة",
    t!"الألمانيّة", t!"الصربية السفلى", t!"اليونانيّة", t!"الإنجليزيّة", t!"الإنجليزية الإسترالية",
    t!"الإنجليزيّة البريطانيّة", t!"الاسبرانتو", t!"الإسبانيّة", t!"الأسبانية الأرجنتينية", t!"الكولومبية الإسبانية",
    t!"الأسبانية المكسيكية", t!"الإسبانية النيكاراغوية", t!"الإسبانية الفنزويلية", t!"الإستونيّة", t!"الباسك", t!"الفارسيّة",
    t!"الفنلنديّة", t!"الفرنسيّة", t!"الفريزيّة", t!"الإيرلنديّة", t!"الغيلية الأسكتلندية", t!"الجليقيّة", t!"العبريّة",
    t!"الهندية", t!"الكرواتيّة", t!"الصربية العليا", t!"الهنغاريّة", t!"الأرمنية", t!"اللغة الوسيطة", t!"ايدو",
    t!"الإندونيسيّة", t!"الإيبو", t!"الآيسلنديّة", t!"الإيطاليّة", t!"اليابانيّة", t!"الجورجيّة", t!"القبائل",
    t!"الكازاخستانية", t!"الخمر", t!"الهنديّة (كنّادا)", t!"الكوريّة", t!"قيرغيز", t!"اللوكسمبرجية", t!"اللتوانيّة",
    t!"اللاتفيّة", t!"المقدونيّة", t!"المايالام", t!"المنغوليّة", t!"المهاراتية", t!"", t!"البورمية", t!"", t!"النيبالية",
    t!"الهولنديّة", t!"النينورسك نرويجيّة", t!"", t!"الأوسيتيكية", t!"البنجابيّة", t!"البولنديّة", t!"البرتغاليّة",
    t!"البرتغاليّة البرازيليّة", t!"الرومانيّة", t!"الروسيّة", t!"السلوفاكيّة", t!"السلوفانيّة", t!"الألبانيّة",
    t!"الصربيّة", t!"اللاتينيّة الصربيّة", t!"السويديّة", t!"السواحلية", t!"التاميل", t!"التيلوغو", t!"طاجيك",
    t!"التايلنديّة", t!"تركمان", t!"التركيّة", t!"التتاريية", t!"الأدمرتية", t!"", t!"الأكرانيّة", t!"الأوردو", t!"الأوزبكي",
    t!"الفيتناميّة", t!"الصينيّة المبسطة", t!"الصينيّة التقليدية"]

/-- /repo/humanize/locale/arDZ/django.po. -/
def names_arDZ : Names where
  locale := loc_arDZ
  names := [
    t!"الإفريقية", t!"العربية", t!"العربية الجزائرية", t!"الأسترية", t!"الأذربيجانية", t!"البيلاروسية", t!"البلغارية",
    t!"البنغالية", t!"البريتونية", t!"البوسنية", t!"الكتلانية", t!"", t!"التشيكية", t!"الويلز", t!"الدنماركية",
    t!"الألمانية", t!"الصربية السفلى", t!"اليونانية", t!"الإنجليزية", t!"الإنجليزية الإسترالية", t!"الإنجليزية البريطانية",
    t!"الاسبرانتو", t!"الإسبانية", t!"الأسبانية الأرجنتينية", t!"الكولومبية الإسبانية", t!"الأسبانية المكسيكية",
    t!"الإسبانية النيكاراغوية", t!"الإسبانية الفنزويلية", t!"الإستونية", t!"الباسك", t!"الفارسية", t!"الفنلندية",
    t!"الفرنسية", t!"الفريزية", t!"الإيرلندية", t!"الغيلية الأسكتلندية", t!"الجليقية", t!"العبرية", t!"الهندية",
    t!"الكرواتية", t!"الصربية العليا", t!"الهنغارية", t!"الأرمنية", t!"اللغة الوسيطة", t!"ايدو", t!"الإندونيسية", t!"إيبو",
    t!"الآيسلندية", t!"الإيطالية", t!"اليابانية", t!"الجورجية", t!"القبائلية", t!"الكازاخستانية", t!"الخمر",
    t!"الهندية (كنّادا)", t!"الكورية", t!"القيرغيزية", t!"اللوكسمبرجية", t!"اللتوانية", t!"اللاتفية", t!"المقدونية",
    t!"المايالام", t!"المنغولية", t!"المهاراتية", t!"ملاي", t!"البورمية", t!"", t!"النيبالية", t!"الهولندية",
    t!"النينورسك نرويجية", t!"", t!"الأوسيتيكية", t!"البنجابية", t!"البولندية", t!"البرتغالية", t!"البرتغالية البرازيلية",
    t!"الرومانية", t!"الروسية", t!"السلوفاكية", t!"السلوفانية", t!"الألبانية", t!"الصربية", t!"اللاتينية الصربية",
    t!"السويدية", t!"السواحلية", t!"التاميل", t!"التيلوغو", t!"الطاجيكية", t!"التايلندية", t!"", t!"التركية", t!"التتاريية",
    t!"الأدمرتية", t!"", t!"الأكرانية", t!"الأوردو", t!"الأوزبكية", t!"الفيتنامية", t!"الصينية المبسطة",
    t!"الصينية التقليدية"]

/-- /repo/humanize/locale/ast/django.po. -/
def names_ast : Names where
  locale := loc_ast
  names := [
    t!"Afrikáans", t!"Árabe", t!"", t!"", t!"Azerbaixanu", t!"Bielorrusu", t!"Búlgaru", t!"Bengalí", t!"Bretón", t!"Bosniu",
    t!"Catalán", t!"", t!"Checu", t!"Galés", t!"Danés", t!"Alemán", t!"", t!"Griegu", t!"Inglés", t!"", t!"Inglés británicu",
    t!"Esperantu", t!"Castellán", t!"Español arxentín", t!"", t!"Español mexicanu", t!"Español nicaraguanu",
    t!"Español venezolanu", t!"Estoniu", t!"Vascu", t!"Persa", t!"Finés", t!"Francés", t!"Frisón", t!"Irlandés", t!"",
    t!"Gallegu", t!"Hebréu", t!"Hindi", t!"Croata", t!"", t!"Húngaru", t!"", t!"Interlingua", t!"", t!"Indonesiu", t!"",
    t!"Islandés", t!"Italianu", t!"Xaponés", t!"Xeorxanu", t!"", t!"Kazakh", t!"Khmer", t!"Canarés", t!"Coreanu", t!"",
    t!"Luxemburgués", t!"Lituanu", t!"Letón", t!"Macedoniu", t!"Malayalam", t!"Mongol", t!"", t!"", t!"Birmanu", t!"",
    t!"Nepalí", t!"Holandés", t!"Nynorsk noruegu", t!"", t!"Osetiu", t!"Punjabi", t!"Polacu", t!"Portugués",
    t!"Portugués brasileñu", t!"Rumanu", t!"Rusu", t!"Eslovacu", t!"Eslovenu", t!"Albanu", t!"Serbiu", t!"Serbiu llatín",
    t!"Suecu", t!"Suaḥili", t!"Tamil", t!"Telugu", t!"", t!"Tailandés", t!"", t!"Turcu", t!"Tatar", t!"Udmurtu", t!"",
    t!"Ucranianu", t!"Urdu", t!"", t!"Vietnamita", t!"Chinu simplificáu", t!"Chinu tradicional"]

/-- /repo/humanize/locale/az/django.po. -/
def names_az : Names where
  locale := loc_az
  names := [
    t!"Afrikaans", t!"Ərəb", t!"Əlcəzair Ərəbcəsi", t!"Asturiya", t!"Azərbaycan", t!"Belarus", t!"Bolqar", t!"Benqal",
    t!"Breton", t!"Bosniya", t!"Katalon", t!"Mərkəzi Kürd dili (Sorani)", t!"Çex", t!"Uels", t!"Danimarka", t!"Alman",
    t!"Aşağı Sorb", t!"Yunan", t!"İngilis", t!"Avstraliya İngiliscəsi", t!"Britaniya İngiliscəsi", t!"Esperanto", t!"İspan",
    t!"Argentina İspancası", t!"Kolumbia İspancası", t!"Meksika İspancası", t!"Nikaraqua İspancası", t!"Venesuela İspancası",
    t!"Eston", t!"Bask", t!"Fars", t!"Fin", t!"Fransız", t!"Fris", t!"İrland", t!"Şotland Keltcəsi", t!"Qalisiya", t!"İvrit",
    t!"Hind", t!"Xorvat", t!"Yuxarı Sorb", t!"Macar", t!"Erməni", t!"İnterlinqua", t!"İdo", t!"İndoneziya dili", t!"İqbo",
    t!"İsland", t!"İtalyan", t!"Yapon", t!"Gürcü", t!"Kabile", t!"Qazax", t!"Xmer", t!"Kannada", t!"Koreya", t!"Qırğız",
    t!"Lüksemburq", t!"Litva", t!"Latış", t!"Makedon", t!"Malayam", t!"Monqol", t!"Marathi", t!"Malay", t!"Birman", t!"",
    t!"Nepal", t!"Niderland", t!"Norveç Nyunorskcası", t!"", t!"Osetin", t!"Pəncab", t!"Polyak", t!"Portuqal",
    t!"Braziliya Portuqalcası", t!"Rumın", t!"Rus", t!"Slovak", t!"Sloven", t!"Alban", t!"Serb", t!"Serb (Latın)", t!"İsveç",
    t!"Suahili", t!"Tamil", t!"Teluqu", t!"Tacik", t!"Tay", t!"Türkmən", t!"Türk", t!"Tatar", t!"Udmurt", t!"Uyğur",
    t!"Ukrayn", t!"Urdu", t!"Özbək", t!"Vyetnam", t!"Sadələşdirilmiş Çin dili", t!"Ənənəvi Çin dili"]

/-- /repo/humanize/locale/be/django.po. -/
def names_be : Names where
  locale := loc_be
  names := [
    t!"Афрыкаанс", t!"Арабская", t!"Алжырская арабская", t!"Астурыйская", t!"Азэрбайджанская", t!"Беларуская",
    t!"Баўгарская", t!"Бэнґальская", t!"Брэтонская", t!"Басьнійская", t!"Каталёнская", t!"Цэнтральнакурдская (сарані)",
    t!"Чэская", t!"Валійская", t!"Дацкая", t!"Нямецкая", t!"Ніжнелужыцкая", t!"Грэцкая", t!"Анґельская",
    t!"Анґельская (Аўстралія)", t!"Анґельская (Брытанская)", t!"Эспэранта", t!"Гішпанская", t!"Гішпанская (Арґентына)",
    t!"Гішпанская (Калумбія)", t!"Гішпанская (Мэксыка)", t!"Гішпанская (Нікараґуа)", t!"Іспанская (Вэнэсуэла)",
    t!"Эстонская", t!"Басконская", t!"Фарсі", t!"Фінская", t!"Француская", t!"Фрызкая", t!"Ірляндзкая",
    t!"Гэльская шатляндзкая", t!"Ґальская", t!"Габрэйская", t!"Гінды", t!"Харвацкая", t!"Верхнелужыцкая", t!"Вугорская",
    t!"Армянскі", t!"Інтэрлінгва", t!"Іда", t!"Інданэзійская", t!"Ігба", t!"Ісьляндзкая", t!"Італьянская", t!"Японская",
    t!"Грузінская", t!"Кабільскі", t!"Казаская", t!"Кхмерская", t!"Каннада", t!"Карэйская", t!"Кіргізская",
    t!"Люксэмбургская", t!"Літоўская", t!"Латыская", t!"Македонская", t!"Малаялам", t!"Манґольская", t!"Маратхі",
    t!"Малайская", t!"Бірманская", t!"", t!"Нэпальская", t!"Галяндзкая", t!"Нарвэская нюнорск", t!"", t!"Асяцінская",
    t!"Панджабі", t!"Польская", t!"Партуґальская", t!"Партуґальская (Бразылія)", t!"Румынская", t!"Расейская", t!"Славацкая",
    t!"Славенская", t!"Альбанская", t!"Сэрбская", t!"Сэрбская (лацінка)", t!"Швэдзкая", t!"Суахілі", t!"Тамільская",
    t!"Тэлуґу", t!"Таджыкскі", t!"Тайская", t!"Туркменская", t!"Турэцкая", t!"Татарская", t!"Удмурцкая", t!"Уйгурскі",
    t!"Украінская", t!"Урду", t!"Узбецкі", t!"Віетнамская", t!"Кітайская (спрошчаная)", t!"Кітайская (звычайная)"]

/-- /repo/humanize/locale/bg/django.po. -/
def names_bg : Names where
  locale := loc_bg
  names := [
    t!"африкаански", t!"арабски език", t!"алжирски арабски", t!"Астурийски", t!"Азербайджански език", t!"Беларуски",
    t!"български език", t!"бенгалски език", t!"Бретон", t!"босненски език", t!"каталански", t!"Кюрдски, централен (Сорани)",
    t!"чешки", t!"уелски", t!"датски", t!"немски", t!"долносорбски", t!"гръцки", t!"английски", t!"австралийски английски",
    t!"британски английски", t!"есперанто", t!"испански", t!"кастилски", t!"колумбийски испански", t!"мексикански испански",
    t!"никарагуански испански", t!"венецуелски испански", t!"естонски", t!"баски", t!"персийски", t!"финландски",
    t!"френски", t!"фризийски", t!"ирландски", t!"шотландски галски", t!"галицейски", t!"иврит", t!"хинди", t!"хърватски",
    t!"горносорбски", t!"унгарски", t!"арменски", t!"интерлингва", t!"идо", t!"индонезийски", t!"игбо", t!"исландски",
    t!"италиански", t!"японски", t!"грузински", t!"кабилски", t!"казахски", t!"кхмерски", t!"каннада", t!"корейски",
    t!"киргизки", t!"люксембургски", t!"литовски", t!"латвийски", t!"македонски", t!"малаялам", t!"монголски", t!"марати",
    t!"малайски", t!"бирмански", t!"", t!"непалски", t!"нидерландски", t!"съвременен норвежки", t!"", t!"осетски",
    t!"панджабски", t!"полски", t!"португалски", t!"бразилски португалски", t!"румънски", t!"руски", t!"словашки",
    t!"словенски", t!"албански", t!"сръбски", t!"сръбски - латиница", t!"шведски", t!"суахили", t!"тамилски", t!"телугу",
    t!"таджикски", t!"тайландски", t!"туркменски", t!"турски", t!"татарски", t!"удмурт", t!"Уйгурски", t!"украински",
    t!"урду", t!"узбекски", t!"виетнамски", t!"китайски", t!"традиционен китайски"]

/-- /repo/humanize/locale/bn/django.po. -/
def names_bn : Names where
  locale := loc_bn
  names := [
    t!"আফ্রিকার অন্যতম সরকারি ভাষা", t!"আরবী", t!"", t!"", t!"আজারবাইজানি", t!"বেলারুশীয়", t!"বুলগেরিয়ান", t!"বাংলা",
    t!"ব্রেটন", t!"বসনিয়ান", t!"ক্যাটালান", t!"", t!"চেক", t!"ওয়েল্স", t!"ড্যানিশ", t!"জার্মান", t!"", t!"গ্রিক", t!"ইংলিশ",
    t!"", t!"বৃটিশ ইংলিশ", t!"আন্তর্জাতিক ভাষা", t!"স্প্যানিশ", t!"আর্জেন্টিনিয়ান স্প্যানিশ", t!"", t!"মেক্সিকান স্প্যানিশ",
    t!"নিকারাগুয়ান স্প্যানিশ", t!"ভেনেজুয়েলার স্প্যানিশ", t!"এস্তোনিয়ান", t!"বাস্ক", t!"ফারসি", t!"ফিনিশ", t!"ফ্রেঞ্চ",
    t!"ফ্রিজ্ল্যানডের ভাষা", t!"আইরিশ", t!"", t!"গ্যালিসিয়ান", t!"হিব্রু", t!"হিন্দী", t!"ক্রোয়েশিয়ান", t!"",
    t!"হাঙ্গেরিয়ান", t!"", t!"", t!"", t!"ইন্দোনেশিয়ান", t!"", t!"আইসল্যান্ডিক", t!"ইটালিয়ান", t!"জাপানিজ", t!"জর্জিয়ান",
    t!"", t!"কাজাখ", t!"খমার", t!"কান্নাড়া", t!"কোরিয়ান", t!"", t!"লুক্সেমবার্গীয়", t!"লিথুয়ানিয়ান", t!"লাটভিয়ান",
    t!"ম্যাসাডোনিয়ান", t!"মালায়ালম", t!"মঙ্গোলিয়ান", t!"", t!"", t!"বার্মিজ", t!"", t!"নেপালি", t!"ডাচ",
    t!"নরওয়েজীয়ান নিনর্স্ক", t!"", t!"অসেটিক", t!"পাঞ্জাবী", t!"পোলিশ", t!"পর্তুগীজ", t!"ব্রাজিলিয়ান পর্তুগীজ",
    t!"রোমানিয়ান", t!"রাশান", t!"স্লোভাক", t!"স্লোভেনিয়ান", t!"আলবেনীয়ান", t!"সার্বিয়ান", t!"সার্বিয়ান ল্যাটিন",
    t!"সুইডিশ", t!"সোয়াহিলি", t!"তামিল", t!"তেলেগু", t!"", t!"থাই", t!"", t!"তুর্কি", t!"তাতারদেশীয়", t!"", t!"",
    t!"ইউক্রেনিয়ান", t!"উর্দু", t!"", t!"ভিয়েতনামিজ", t!"সরলীকৃত চাইনীজ", t!"প্রচলিত চাইনীজ"]

/-- /repo/humanize/locale/br/django.po. -/
def names_br : Names where
  locale := loc_br
  names := [
    t!"Afrikaneg", t!"Arabeg", t!"", t!"Astureg", t!"Azeri", t!"Belaruseg", t!"Bulgareg", t!"Bengaleg", t!"Brezhoneg",
    t!"Bosneg", t!"Katalaneg", t!"", t!"Tchekeg", t!"Kembraeg", t!"Daneg", t!"Alamaneg", t!"", t!"Gresianeg", t!"Saozneg",
    t!"Saozneg Aostralia", t!"Saozneg Breizh-Veur", t!"Esperanteg", t!"Spagnoleg", t!"Spagnoleg Arc'hantina",
    t!"Spagnoleg Kolombia", t!"Spagnoleg Mec'hiko", t!"Spagnoleg Nicaragua", t!"Spagnoleg Venezuela", t!"Estoneg",
    t!"Euskareg", t!"Perseg", t!"Finneg", t!"Galleg", t!"Frizeg", t!"Iwerzhoneg", t!"", t!"Galizeg", t!"Hebraeg", t!"Hindi",
    t!"Kroateg", t!"", t!"Hungareg", t!"", t!"Interlingua", t!"Ido", t!"Indonezeg", t!"", t!"Islandeg", t!"Italianeg",
    t!"Japaneg", t!"Jorjianeg", t!"", t!"kazak", t!"Khmer", t!"Kannata", t!"Koreaneg", t!"", t!"Luksembourgeg", t!"Lituaneg",
    t!"Latveg", t!"Makedoneg", t!"Malayalam", t!"Mongoleg", t!"Marathi", t!"", t!"Burmeg", t!"", t!"nepaleg",
    t!"Nederlandeg", t!"Norvegeg Nynorsk", t!"", t!"Oseteg", t!"Punjabeg", t!"Poloneg", t!"Portugaleg",
    t!"Portugaleg Brazil", t!"Roumaneg", t!"Rusianeg", t!"Slovakeg", t!"Sloveneg", t!"Albaneg", t!"Serbeg",
    t!"Serbeg e lizherennoù latin", t!"Svedeg", t!"swahileg", t!"Tamileg", t!"Telougou", t!"", t!"Thai", t!"", t!"Turkeg",
    t!"tatar", t!"Oudmourteg", t!"", t!"Ukraineg", t!"Ourdou", t!"", t!"Vietnameg", t!"Sinaeg eeunaet", t!"Sinaeg hengounel"]

/-- /repo/humanize/locale/bs/django.po. -/
def names_bs : Names where
  locale := loc_bs
  names := [
    t!"", t!"arapski", t!"", t!"", t!"Azerbejdžanski", t!"", t!"bugarski", t!"bengalski", t!"", t!"bosanski", t!"katalonski",
    t!"", t!"češki", t!"velški", t!"danski", t!"njemački", t!"", t!"grčki", t!"engleski", t!"", t!"Britanski engleski", t!"",
    t!"španski", t!"Argentinski španski", t!"", t!"Meksički španski", t!"Nikuaraganski španski", t!"", t!"estonski",
    t!"baskijski", t!"persijski", t!"finski", t!"francuski", t!"frišanski", t!"irski", t!"", t!"galski", t!"hebrejski",
    t!"hindi", t!"hrvatski", t!"", t!"mađarski", t!"", t!"", t!"", t!"Indonežanski", t!"", t!"islandski", t!"italijanski",
    t!"japanski", t!"gruzijski", t!"", t!"", t!"kambođanski", t!"kanada", t!"korejski", t!"", t!"", t!"litvanski",
    t!"latvijski", t!"makedonski", t!"Malajalamski", t!"Mongolski", t!"", t!"", t!"", t!"", t!"", t!"holandski",
    t!"Norveški novi", t!"", t!"", t!"Pandžabi", t!"poljski", t!"portugalski", t!"brazilski portugalski", t!"rumunski",
    t!"ruski", t!"slovački", t!"slovenački", t!"albanski", t!"srpski", t!"srpski latinski", t!"švedski", t!"", t!"tamilski",
    t!"telugu", t!"", t!"tajlandski", t!"", t!"turski", t!"", t!"", t!"", t!"ukrajinski", t!"Urdu", t!"",
    t!"vijetnamežanski", t!"novokineski", t!"starokineski"]

/-- /repo/humanize/locale/ca/django.po. -/
def names_ca : Names where
  locale := loc_ca
  names := [
    t!"Afrikans", t!"àrab", t!"àrab argelià", t!"Asturià", t!"azerbaijanès", t!"Bielorús", t!"búlgar", t!"bengalí",
    t!"Bretó", t!"bosnià", t!"català", t!"", t!"txec", t!"gal·lès", t!"danès", t!"alemany", t!"baix serbi", t!"grec",
    t!"anglès", t!"Anglès d'Austràlia", t!"anglès britànic", t!"Esperanto", t!"castellà", t!"castellà d'Argentina",
    t!"castellà de Colombia", t!"castellà de Mèxic", t!"castellà de Nicaragua", t!"castellà de Veneçuela", t!"estonià",
    t!"èuscar", t!"persa", t!"finlandès", t!"francès", t!"frisi", t!"irlandès", t!"Gaèlic escocès", t!"gallec", t!"hebreu",
    t!"hindi", t!"croat", t!"alt serbi", t!"hongarès", t!"Armeni", t!"Interlingua", t!"Ido", t!"indonesi", t!"lgbo",
    t!"islandès", t!"italià", t!"japonès", t!"georgià", t!"Cabilenc", t!"Kazakh", t!"khmer", t!"kannarès", t!"coreà",
    t!"Kyrgyz", t!"Luxemburguès", t!"lituà", t!"letó", t!"macedoni", t!"malaiàlam ", t!"mongol", t!"Maratí", t!"Malai",
    t!"Burmès", t!"", t!"nepalès", t!"holandès", t!"noruec nynorsk", t!"", t!"ossètic", t!"panjabi", t!"polonès",
    t!"portuguès", t!"portuguès de brasil", t!"romanès", t!"rus", t!"eslovac", t!"eslovè", t!"albanès", t!"serbi",
    t!"serbi llatí", t!"suec", t!"Swahili", t!"tàmil", t!"telugu", t!"Tajik", t!"tailandès", t!"Turkmen", t!"turc",
    t!"Tatar", t!"Udmurt", t!"", t!"ucraïnès", t!"urdu", t!"Uzbek", t!"vietnamita", t!"xinès simplificat",
    t!"xinès tradicional"]

/-- /repo/humanize/locale/ckb/django.po. -/
def names_ckb : Names where
  locale := loc_ckb
  names := [
    t!"ئەفریقی", t!"عەرەبی", t!"عەرەبیی جەزائیری", t!"ئاستوری", t!"ئازەربایجانی", t!"بیلاڕوسی", t!"بولگاری", t!"بەنگالی",
    t!"بریتۆنی", t!"بۆسنێیی", t!"کاتالانی", t!"کوردی", t!"چیکی", t!"وێڵزی", t!"دانیمارکی", t!"ئەڵمانی", t!"سۆربیانی خواروو",
    t!"یۆنانی", t!"ئینگلیزی", t!"ئینگلیزی ئوستورالی", t!"ئینگلیزی بەریتانی", t!"ئێسپەرانتەویی", t!"ئیسپانی",
    t!"ئیسپانیی ئەرجەنتینی", t!"ئیسپانیی کۆڵۆمبی", t!"ئیسپانیی مەکسیکی", t!"ئیسپانیی نیکاراگوایی", t!"ئیسپانیی فەنزوێلایی",
    t!"ئیستۆنی", t!"باسکۆیی", t!"فارسی", t!"فینلەندی", t!"فەڕەنسی", t!"فریسی", t!"ئیرلەندی", t!"گالیکی سکۆتلەندی",
    t!"گالیسیایی", t!"ئیسرائیلی", t!"هیندی", t!"کڕواتی", t!"سڕبی سەروو", t!"هەنگاری", t!"ئەرمەنی", t!"ئینتەرلینگوایی",
    t!"ئیدۆیی", t!"ئیندۆنیزی", t!"ئیگبۆیی", t!"ئایسلەندی", t!"ئیتاڵی", t!"یابانی", t!"جۆرجی", t!"کابایلی", t!"کازاخی",
    t!"خەمیری", t!"کانێدایی", t!"کۆری", t!"کیرگزستانی", t!"لۆکسەمبۆرگی", t!"لیتوانی", t!"لاتیڤی", t!"مەسەدۆنی",
    t!"مەلایالامی", t!"مەنگۆلی", t!"ماراسی", t!"مالایی", t!"بورمایی", t!"", t!"نیپاڵی", t!"هۆڵەندی", t!"نینۆرسکی نەرویجی",
    t!"", t!"ئۆسیتی", t!"پونجابی", t!"پۆڵۆنی", t!"پورتوگالی", t!"پورتوگالیی بەڕازیلی", t!"ڕۆمانیایی", t!"ڕووسی", t!"سلۆڤاکی",
    t!"سلۆڤینیایی", t!"ئەلبانی", t!"سڕبی", t!"سڕبیی لاتین", t!"سویدی", t!"سواهیلی", t!"تامیلی", t!"تێلوگویی", t!"تاجیکی",
    t!"تایلاندی", t!"تورکمانی", t!"تورکی", t!"تاتاری", t!"ئودمورتی", t!"ئۆیغور", t!"ئۆکرانی", t!"ئوردویی", t!"ئۆزبەکی",
    t!"ڤێتنامی", t!"چینی سادەکراو", t!"چینی کلاسیکی"]

/-- /repo/humanize/locale/cs/django.po. -/
def names_cs : Names where
  locale := loc_cs
  names := [
    t!"afrikánsky", t!"arabsky", t!"alžírskou arabštinou", t!"asturštinou", t!"ázerbájdžánsky", t!"bělorusky", t!"bulharsky",
    t!"bengálsky", t!"bretonsky", t!"bosensky", t!"katalánsky", t!"Střední kurdština (soranština)", t!"česky", t!"velšsky",
    t!"dánsky", t!"německy", t!"dolnolužickou srbštinou", t!"řecky", t!"anglicky", t!"australskou angličtinou",
    t!"britskou angličtinou", t!"esperantsky", t!"španělsky", t!"argentinskou španělštinou", t!"kolumbijskou španělštinou",
    t!"mexickou španělštinou", t!"nikaragujskou španělštinou", t!"venezuelskou španělštinou", t!"estonsky", t!"baskicky",
    t!"persky", t!"finsky", t!"francouzsky", t!"frísky", t!"irsky", t!"skotskou keltštinou", t!"galicijsky", t!"hebrejsky",
    t!"hindsky", t!"chorvatsky", t!"hornolužickou srbštinou", t!"maďarsky", t!"arménštinou", t!"interlingua", t!"idem",
    t!"indonésky", t!"igboštinou", t!"islandsky", t!"italsky", t!"japonsky", t!"gruzínštinou", t!"kabylštinou", t!"kazašsky",
    t!"khmersky", t!"kannadsky", t!"korejsky", t!"kyrgyzštinou", t!"lucembursky", t!"litevsky", t!"lotyšsky", t!"makedonsky",
    t!"malajálamsky", t!"mongolsky", t!"marathi", t!"malajštinou", t!"barmštinou", t!"", t!"nepálsky", t!"nizozemsky",
    t!"norsky (Nynorsk)", t!"", t!"osetštinou", t!"paňdžábsky", t!"polsky", t!"portugalsky", t!"brazilskou portugalštinou",
    t!"rumunsky", t!"rusky", t!"slovensky", t!"slovinsky", t!"albánsky", t!"srbsky", t!"srbsky (latinkou)", t!"švédsky",
    t!"svahilsky", t!"tamilsky", t!"telužsky", t!"Tádžik", t!"thajsky", t!"turkmenštinou", t!"turecky", t!"tatarsky",
    t!"udmurtsky", t!"Ujgurština", t!"ukrajinsky", t!"urdsky", t!"uzbecky", t!"vietnamsky", t!"čínsky (zjednodušeně)",
    t!"čínsky (tradičně)"]

/-- /repo/humanize/locale/cy/django.po. -/
def names_cy : Names where
  locale := loc_cy
  names := [
    t!"Affricaneg", t!"Arabeg", t!"", t!"Astwrieg", t!"Azerbaijanaidd", t!"Belarwseg", t!"Bwlgareg", t!"Bengaleg",
    t!"Llydaweg", t!"Bosnieg", t!"Catalaneg", t!"", t!"Tsieceg", t!"Cymraeg", t!"Daneg", t!"Almaeneg", t!"", t!"Groegedd",
    t!"Saesneg", t!"Saesneg Awstralia", t!"Saesneg Prydain", t!"Esperanto", t!"Sbaeneg", t!"Sbaeneg Ariannin", t!"",
    t!"Sbaeneg Mecsico", t!"Sbaeneg Nicaragwa", t!"Sbaeneg Feneswela", t!"Estoneg", t!"Basgeg", t!"Persieg", t!"Ffinneg",
    t!"Ffrangeg", t!"Ffrisieg", t!"Gwyddeleg", t!"", t!"Galisieg", t!"Hebraeg", t!"Hindi", t!"Croasieg", t!"", t!"Hwngareg",
    t!"", t!"Interlingua", t!"Ido", t!"Indoneseg", t!"", t!"Islandeg", t!"Eidaleg", t!"Siapanëeg", t!"Georgeg", t!"",
    t!"Casacstanaidd", t!"Chmereg", t!"Canadeg", t!"Corëeg", t!"", t!"Lwcsembergeg", t!"Lithwaneg", t!"Latfieg",
    t!"Macedoneg", t!"Malaialam", t!"Mongoleg", t!"Marathi", t!"", t!"Byrmaneg", t!"", t!"Nepaleg", t!"Iseldireg",
    t!"Ninorsk Norwyeg", t!"", t!"Osetieg", t!"Pwnjabi", t!"Pwyleg", t!"Portiwgaleg", t!"Portiwgaleg Brasil", t!"Romaneg",
    t!"Rwsieg", t!"Slofaceg", t!"Slofeneg", t!"Albaneg", t!"Serbeg", t!"Lladin Serbiaidd", t!"Swedeg", t!"Swahili",
    t!"Tamil", t!"Telwgw", t!"", t!"Tai", t!"", t!"Twrceg", t!"Tatareg", t!"Wdmwrteg", t!"", t!"Wcreineg", t!"Wrdw", t!"",
    t!"Fietnameg", t!"Tsieinëeg Syml", t!"Tseinëeg Traddodiadol"]

/-- /repo/humanize/locale/da/django.po. -/
def names_da : Names where
  locale := loc_da
  names := [
    t!"afrikaans", t!"arabisk", t!"algerisk arabisk", t!"Asturisk", t!"azerbaidjansk", t!"hviderussisk", t!"bulgarsk",
    t!"bengalsk", t!"bretonsk", t!"bosnisk", t!"catalansk", t!"Centralkurdisk (Sorani)", t!"tjekkisk", t!"walisisk",
    t!"dansk", t!"tysk", t!"nedresorbisk", t!"græsk", t!"engelsk", t!"australsk engelsk", t!"britisk engelsk", t!"esperanto",
    t!"spansk", t!"argentinsk spansk", t!"colombiansk spansk", t!"mexikansk spansk", t!"nicaraguansk spansk",
    t!"venezuelansk spansk", t!"estisk", t!"baskisk", t!"persisk", t!"finsk", t!"fransk", t!"frisisk", t!"irsk",
    t!"skotsk gælisk", t!"galicisk", t!"hebraisk", t!"hindi", t!"kroatisk", t!"øvresorbisk", t!"ungarsk", t!"armensk",
    t!"interlingua", t!"Ido", t!"indonesisk", t!"igbo", t!"islandsk", t!"italiensk", t!"japansk", t!"georgisk", t!"kabylsk",
    t!"kasakhisk", t!"khmer", t!"kannada", t!"koreansk", t!"kirgisisk", t!"luxembourgisk", t!"litauisk", t!"lettisk",
    t!"makedonsk", t!"malayalam", t!"mongolsk", t!"marathi", t!"malajisk", t!"burmesisk", t!"", t!"nepalesisk",
    t!"hollandsk", t!"norsk nynorsk", t!"", t!"ossetisk", t!"punjabi", t!"polsk", t!"portugisisk",
    t!"brasiliansk portugisisk", t!"rumænsk", t!"russisk", t!"slovakisk", t!"slovensk", t!"albansk", t!"serbisk",
    t!"serbisk (latin)", t!"svensk", t!"swahili", t!"tamil", t!"telugu", t!"tadsjikisk", t!"thai", t!"turkmensk",
    t!"tyrkisk", t!"tatarisk", t!"udmurtisk", t!"uygurisk", t!"ukrainsk", t!"urdu", t!"usbekisk", t!"vietnamesisk",
    t!"forenklet kinesisk", t!"traditionelt kinesisk"]

/-- /repo/humanize/locale/de/django.po. -/
def names_de : Names where
  locale := loc_de
  names := [
    t!"Afrikaans", t!"Arabisch", t!"Algerisches Arabisch", t!"Asturisch", t!"Aserbaidschanisch", t!"Weißrussisch",
    t!"Bulgarisch", t!"Bengali", t!"Bretonisch", t!"Bosnisch", t!"Katalanisch", t!"Zentralkurdisch (Sorani)",
    t!"Tschechisch", t!"Walisisch", t!"Dänisch", t!"Deutsch", t!"Niedersorbisch", t!"Griechisch", t!"Englisch",
    t!"Australisches Englisch", t!"Britisches Englisch", t!"Esperanto", t!"Spanisch", t!"Argentinisches Spanisch",
    t!"Kolumbianisches Spanisch", t!"Mexikanisches Spanisch", t!"Nicaraguanisches Spanisch", t!"Venezolanisches Spanisch",
    t!"Estnisch", t!"Baskisch", t!"Persisch", t!"Finnisch", t!"Französisch", t!"Friesisch", t!"Irisch",
    t!"Schottisch-Gälisch", t!"Galicisch", t!"Hebräisch", t!"Hindi", t!"Kroatisch", t!"Obersorbisch", t!"Ungarisch",
    t!"Armenisch", t!"Interlingua", t!"Ido", t!"Indonesisch", t!"Igbo", t!"Isländisch", t!"Italienisch", t!"Japanisch",
    t!"Georgisch", t!"Kabylisch", t!"Kasachisch", t!"Khmer", t!"Kannada", t!"Koreanisch", t!"Kirgisisch", t!"Luxemburgisch",
    t!"Litauisch", t!"Lettisch", t!"Mazedonisch", t!"Malayalam", t!"Mongolisch", t!"Marathi", t!"Malaiisch", t!"Birmanisch",
    t!"", t!"Nepali", t!"Niederländisch", t!"Norwegisch (Nynorsk)", t!"", t!"Ossetisch", t!"Panjabi", t!"Polnisch",
    t!"Portugiesisch", t!"Brasilianisches Portugiesisch", t!"Rumänisch", t!"Russisch", t!"Slowakisch", t!"Slowenisch",
    t!"Albanisch", t!"Serbisch", t!"Serbisch (Latein)", t!"Schwedisch", t!"Swahili", t!"Tamilisch", t!"Telugisch",
    t!"Tadschikisch", t!"Thailändisch", t!"Turkmenisch", t!"Türkisch", t!"Tatarisch", t!"Udmurtisch", t!"Uigurisch",
    t!"Ukrainisch", t!"Urdu", t!"Usbekisch", t!"Vietnamesisch", t!"Vereinfachtes Chinesisch", t!"Traditionelles Chinesisch"]

/-- /repo/humanize/locale/dsb/django.po. -/
def names_dsb : Names where
  locale := loc_dsb
  names := [
    t!"Afrikaanšćina", t!"Arabšćina", t!"Algeriska arabšćina", t!"Asturišćina", t!"Azerbajdžanišćina", t!"Běłorušćina",
    t!"Bulgaršćina", t!"Bengalšćina", t!"Bretońšćina", t!"Bosnišćina", t!"Katalańšćina", t!"Centralna kurdišćina (Sorani)",
    t!"Češćina", t!"Kymrišćina", t!"Dańšćina", t!"Nimšćina", t!"Dolnoserbšćina", t!"Grichišćina", t!"Engelšćina",
    t!"Awstralska engelšćina", t!"Britiska engelšćina", t!"Esperanto", t!"Špańšćina", t!"Argentinska špańšćina",
    t!"Kolumbiska špańšćina", t!"Mexikańska špańšćina", t!"Nikaraguaska špańšćina", t!"Venezolaniska špańšćina",
    t!"Estnišćina", t!"Baskišćina", t!"Persišćina", t!"Finšćina", t!"Francojšćina", t!"Frizišćina", t!"Iršćina",
    t!"Šotiska gelišćina", t!"Galicišćina", t!"Hebrejšćina", t!"Hindišćina", t!"Chorwatšćina", t!"Górnoserbšćina",
    t!"Hungoršćina", t!"Armeńšćina", t!"Interlingua", t!"Ido", t!"Indonešćina", t!"Igbo", t!"Islandšćina", t!"Italšćina",
    t!"Japańšćina", t!"Georgišćina", t!"Kabylšćina", t!"Kazachšćina", t!"Rěc Khmerow", t!"Kannadišćina", t!"Korejańšćina",
    t!"Kirgišćina", t!"Luxemburgšćina", t!"Litawšćina", t!"Letišćina", t!"Makedońšćina", t!"Malajalam", t!"Mongolšćina",
    t!"Marathi", t!"Malayzišćina", t!"Myanmaršćina", t!"", t!"Nepalšćina", t!"¨Nižozemšćina", t!"Norwegski Nynorsk", t!"",
    t!"Osetšćina", t!"Pundžabi", t!"Pólšćina", t!"Portugišćina", t!"Brazilska portugišćina", t!"Rumunšćina", t!"Rušćina",
    t!"Słowakšćina", t!"Słowjeńšćina", t!"Albanšćina", t!"Serbišćina", t!"Serbišćina, łatyńska", t!"Šwedšćina",
    t!"Suahelšćina", t!"Tamilšćina", t!"Telugu", t!"Tadźikišćina", t!"Thaišćina", t!"Turkmeńšćina", t!"Turkojšćina",
    t!"Tataršćina", t!"Udmurtšćina", t!"Ujguršćina", t!"Ukrainšćina", t!"Urdu", t!"Uzbekšćina", t!"Vietnamšćina",
    t!"Zjadnorjona chinšćina", t!"Tradicionelna chinšćina"]

/-- /repo/humanize/locale/el/django.po. -/
def names_el : Names where
  locale := loc_el
  names := [
    t!"Αφρικάνς", t!"Αραβικά", t!"Αραβικά Αλγερίας", t!"Αστούριας", t!"Γλώσσα Αζερμπαϊτζάν", t!"Λευκορώσικα", t!"Βουλγαρικά",
    t!"Μπενγκάλι", t!"Βρετονικά", t!"Βοσνιακά", t!"Καταλανικά", t!"", t!"Τσέχικα", t!"Ουαλικά", t!"Δανέζικα", t!"Γερμανικά",
    t!"Κάτω Σορβικά", t!"Ελληνικά", t!"Αγγλικά", t!"Αγγλικά Αυστραλίας", t!"Αγγλικά Βρετανίας", t!"Εσπεράντο", t!"Ισπανικά",
    t!"Ισπανικά Αργεντινής", t!"Ισπανικά Κολομβίας", t!"Μεξικανική διάλεκτος Ισπανικών", t!"Ισπανικά Νικαράγουας ",
    t!"Ισπανικά Βενεζουέλας", t!"Εσθονικά", t!"Βάσκικα", t!"Περσικά", t!"Φινλανδικά", t!"Γαλλικά", t!"Frisian",
    t!"Ιρλανδικά", t!"Σκωτσέζικα Γαελικά", t!"Γαελικά", t!"Εβραϊκά", t!"Ινδικά", t!"Κροατικά", t!"Άνω Σορβικά", t!"Ουγγρικά",
    t!"Αρμενικά", t!"Ιντερλίνγκουα", t!"Ίντο", t!"Ινδονησιακά", t!"Ίγκμπο", t!"Ισλανδικά", t!"Ιταλικά", t!"Γιαπωνέζικα",
    t!"Γεωργιανά", t!"Kabyle", t!"Καζακστά", t!"Χμερ", t!"Κανάντα", t!"Κορεάτικα", t!"Κιργιζικά", t!"Λουξεμβουργιανά",
    t!"Λιθουανικά", t!"Λεττονικά", t!"Μακεδονικά", t!"Μαλαγιαλάμ", t!"Μογγολικά", t!"Μαράθι", t!"", t!"Βιρμανικά", t!"",
    t!"Νεπαλέζικα", t!"Ολλανδικά", t!"Νορβηγική διάλεκτος Nynorsk - Νεονορβηγική", t!"", t!"Οσσετικά", t!"Πουντζάμπι",
    t!"Πολωνικά", t!"Πορτογαλικά", t!"Πορτογαλικά - διάλεκτος Βραζιλίας", t!"Ρουμανικά", t!"Ρωσικά", t!"Σλοβακικά",
    t!"Σλοβενικά", t!"Αλβανικά", t!"Σερβικά", t!"Σέρβικα Λατινικά", t!"Σουηδικά", t!"Σουαχίλι", t!"Διάλεκτος Ταμίλ",
    t!"Τελούγκου", t!"Τατζικικά", t!"Ταϊλάνδης", t!"Τουρκμενικά", t!"Τουρκικά", t!"Ταταρικά", t!"Ουντμουρτικά", t!"",
    t!"Ουκρανικά", t!"Urdu", t!"Ουζμπεκικά", t!"Βιετναμέζικα", t!"Απλοποιημένα Κινέζικα", t!"Παραδοσιακά Κινέζικα"]

/-- /repo/humanize/locale/enAU/django.po. -/
def names_enAU : Names where
  locale := loc_enAU
  names := [
    t!"Afrikaans", t!"Arabic", t!"Algerian Arabic", t!"Asturian", t!"Azerbaijani", t!"Belarusian", t!"Bulgarian",
    t!"Bengali", t!"Breton", t!"Bosnian", t!"Catalan", t!"", t!"Czech", t!"Welsh", t!"Danish", t!"German", t!"Lower Sorbian",
    t!"Greek", t!"English", t!"Australian English", t!"British English", t!"Esperanto", t!"Spanish", t!"Argentinian Spanish",
    t!"Colombian Spanish", t!"Mexican Spanish", t!"Nicaraguan Spanish", t!"Venezuelan Spanish", t!"Estonian", t!"Basque",
    t!"Persian", t!"Finnish", t!"French", t!"Frisian", t!"Irish", t!"Scottish Gaelic", t!"Galician", t!"Hebrew", t!"Hindi",
    t!"Croatian", t!"Upper Sorbian", t!"Hungarian", t!"Armenian", t!"Interlingua", t!"Ido", t!"Indonesian", t!"Igbo",
    t!"Icelandic", t!"Italian", t!"Japanese", t!"Georgian", t!"Kabyle", t!"Kazakh", t!"Khmer", t!"Kannada", t!"Korean",
    t!"Kyrgyz", t!"Luxembourgish", t!"Lithuanian", t!"Latvian", t!"Macedonian", t!"Malayalam", t!"Mongolian", t!"Marathi",
    t!"", t!"Burmese", t!"", t!"Nepali", t!"Dutch", t!"Norwegian Nynorsk", t!"", t!"Ossetic", t!"Punjabi", t!"Polish",
    t!"Portuguese", t!"Brazilian Portuguese", t!"Romanian", t!"Russian", t!"Slovak", t!"Slovenian", t!"Albanian",
    t!"Serbian", t!"Serbian Latin", t!"Swedish", t!"Swahili", t!"Tamil", t!"Telugu", t!"Tajik", t!"Thai", t!"Turkmen",
    t!"Turkish", t!"Tatar", t!"Udmurt", t!"", t!"Ukrainian", t!"Urdu", t!"Uzbek", t!"Vietnamese", t!"Simplified Chinese",
    t!"Traditional Chinese"]

/-- /repo/humanize/locale/enGB/django.po. -/
def names_enGB : Names where
  locale := loc_enGB
  names := [
    t!"", t!"Arabic", t!"", t!"", t!"Azerbaijani", t!"", t!"Bulgarian", t!"Bengali", t!"", t!"Bosnian", t!"Catalan", t!"",
    t!"Czech", t!"Welsh", t!"Danish", t!"German", t!"", t!"Greek", t!"English", t!"", t!"British English", t!"Esperanto",
    t!"Spanish", t!"Argentinian Spanish", t!"", t!"Mexican Spanish", t!"Nicaraguan Spanish", t!"", t!"Estonian", t!"Basque",
    t!"Persian", t!"Finnish", t!"French", t!"Frisian", t!"Irish", t!"", t!"Galician", t!"Hebrew", t!"Hindi", t!"Croatian",
    t!"", t!"Hungarian", t!"", t!"", t!"", t!"Indonesian", t!"", t!"Icelandic", t!"Italian", t!"Japanese", t!"Georgian",
    t!"", t!"Kazakh", t!"Khmer", t!"Kannada", t!"Korean", t!"", t!"", t!"Lithuanian", t!"Latvian", t!"Macedonian",
    t!"Malayalam", t!"Mongolian", t!"", t!"", t!"", t!"", t!"Nepali", t!"Dutch", t!"Norwegian Nynorsk", t!"", t!"",
    t!"Punjabi", t!"Polish", t!"Portuguese", t!"Brazilian Portuguese", t!"Romanian", t!"Russian", t!"Slovak", t!"Slovenian",
    t!"Albanian", t!"Serbian", t!"Serbian Latin", t!"Swedish", t!"Swahili", t!"Tamil", t!"Telugu", t!"", t!"Thai", t!"",
    t!"Turkish", t!"Tatar", t!"", t!"", t!"Ukrainian", t!"Urdu", t!"", t!"Vietnamese", t!"Simplified Chinese",
    t!"Traditional Chinese"]

/-- /repo/humanize/locale/eo/django.po. -/
def names_eo : Names where
  locale := loc_eo
  names := [
    t!"Afrikansa", t!"Araba", t!"Alĝeria araba", t!"Asturia", t!"Azerbajĝana", t!"Belorusa", t!"Bulgara", t!"Bengala",
    t!"Bretona", t!"Bosnia", t!"Kataluna", t!"", t!"Ĉeĥa", t!"Kimra", t!"Dana", t!"Germana", t!"Malsuprasaroba", t!"Greka",
    t!"Angla", t!"Angla (Aŭstralia)", t!"Angla (Brita)", t!"Esperanto", t!"Hispana", t!"Hispana (Argentinio)",
    t!"Hispana (Kolombio)", t!"Hispana (Meksiko)", t!"Hispana (Nikaragvo)", t!"Hispana (Venezuelo)", t!"Estona", t!"Eŭska",
    t!"Persa", t!"Finna", t!"Franca", t!"Frisa", t!"Irlanda", t!"Skota gaela", t!"Galega", t!"Hebrea", t!"Hinda", t!"Kroata",
    t!"Suprasoraba", t!"Hungara", t!"Armena", t!"Interlingvaa", t!"Ido", t!"Indoneza", t!"Igba", t!"Islanda", t!"Itala",
    t!"Japana", t!"Kartvela", t!"Kabila", t!"Kazaĥa", t!"Kmera", t!"Kanara", t!"Korea", t!"Kirgiza", t!"Luksemburga",
    t!"Litova", t!"Latva", t!"Makedona", t!"Malajala", t!"Mongola", t!"Marata", t!"Malaja", t!"Birma", t!"", t!"Nepala",
    t!"Nederlanda", t!"Norvega (nynorsk)", t!"", t!"Oseta", t!"Panĝaba", t!"Pola", t!"Portugala", t!"Portugala (Brazilo)",
    t!"Rumana", t!"Rusa", t!"Slovaka", t!"Slovena", t!"Albana", t!"Serba", t!"Serba (latina)", t!"Sveda", t!"Svahila",
    t!"Tamila", t!"Telugua", t!"Taĝika", t!"Taja", t!"Turkmena", t!"Turka", t!"Tatara", t!"Udmurta", t!"", t!"Ukraina",
    t!"Urdua", t!"Uzbeka", t!"Vjetnama", t!"Ĉina (simpligite)", t!"Ĉina (tradicie)"]

/-- /repo/humanize/locale/es/django.po. -/
def names_es : Names where
  locale := loc_es
  names := [
    t!"Africano", t!"Árabe", t!"Árabe argelino", t!"Asturiano", t!"Azerbaiyán", t!"Bielorruso", t!"Búlgaro", t!"Bengalí",
    t!"Bretón", t!"Bosnio", t!"Catalán", t!"Kurdo central (Sorani)", t!"Checo", t!"Galés", t!"Danés", t!"Alemán",
    t!"Bajo sorbio", t!"Griego", t!"Inglés", t!"Inglés australiano", t!"Inglés británico", t!"Esperanto", t!"Español",
    t!"Español de Argentina", t!"Español de Colombia", t!"Español de México", t!"Español de Nicaragua",
    t!"Español de Venezuela", t!"Estonio", t!"Vasco", t!"Persa", t!"Finés", t!"Francés", t!"Frisón", t!"Irlandés",
    t!"Gaélico Escocés", t!"Gallego", t!"Hebreo", t!"Hindi", t!"Croata", t!"Alto sorbio", t!"Húngaro", t!"Armenio",
    t!"Interlingua", t!"Ido", t!"Indonesio", t!"Igbo", t!"Islandés", t!"Italiano", t!"Japonés", t!"Georgiano", t!"Cabilio",
    t!"Kazajo", t!"Khmer", t!"Kannada", t!"Coreano", t!"Kirguís", t!"Luxenburgués", t!"Lituano", t!"Letón", t!"Macedonio",
    t!"Malayalam", t!"Mongol", t!"Maratí", t!"Malayo", t!"Birmano", t!"", t!"Nepalí", t!"Holandés", t!"Nynorsk", t!"",
    t!"Osetio", t!"Panyabí", t!"Polaco", t!"Portugués", t!"Portugués de Brasil", t!"Rumano", t!"Ruso", t!"Eslovaco",
    t!"Esloveno", t!"Albanés", t!"Serbio", t!"Serbio latino", t!"Sueco", t!"Suajili", t!"Tamil", t!"Telugu", t!"Tayiko",
    t!"Tailandés", t!"Turcomanos", t!"Turco", t!"Tártaro", t!"Udmurt", t!"Uigur", t!"Ucraniano", t!"Urdu", t!"Uzbeko",
    t!"Vietnamita", t!"Chino simplificado", t!"Chino tradicional"]

/-- /repo/humanize/locale/esAR/django.po. -/
def names_esAR : Names where
  locale := loc_esAR
  names := [
    t!"afrikáans", t!"árabe", t!"Árabe de Argelia", t!"asturiano", t!"azerbaiyán", t!"bielorruso", t!"búlgaro", t!"bengalí",
    t!"bretón", t!"bosnio", t!"catalán", t!"Kurdo central (Sorani)", t!"checo", t!"galés", t!"danés", t!"alemán",
    t!"bajo sorabo", t!"griego", t!"inglés", t!"inglés australiano", t!"inglés británico", t!"esperanto", t!"español",
    t!"español (Argentina)", t!"español (Colombia)", t!"español (México)", t!"español (Nicaragua)", t!"español (Venezuela)",
    t!"estonio", t!"vasco", t!"persa", t!"finlandés", t!"francés", t!"frisón", t!"irlandés", t!"gaélico escocés",
    t!"gallego", t!"hebreo", t!"hindi", t!"croata", t!"alto sorabo", t!"húngaro", t!"armenio", t!"Interlingua", t!"ido",
    t!"indonesio", t!"Igbo", t!"islandés", t!"italiano", t!"japonés", t!"georgiano", t!"cabilio", t!"kazajo", t!"jémer",
    t!"canarés", t!"coreano", t!"kirguís", t!"luxemburgués", t!"lituano", t!"letón", t!"macedonio", t!"malabar", t!"mongol",
    t!"maratí", t!"malayo", t!"burmés", t!"", t!"nepalés", t!"holandés", t!"nynorsk", t!"", t!"osetio", t!"panyabí",
    t!"polaco", t!"portugués", t!"portugués de Brasil", t!"rumano", t!"ruso", t!"eslovaco", t!"esloveno", t!"albanés",
    t!"serbio", t!"latín de Serbia", t!"sueco", t!"suajili", t!"tamil", t!"telugu", t!"tayiko", t!"tailandés", t!"turcomano",
    t!"turco", t!"tártaro", t!"udmurto", t!"Uigur", t!"ucraniano", t!"urdu", t!"uzbeko", t!"vietnamita",
    t!"chino simplificado", t!"chino tradicional"]

/-- /repo/humanize/locale/esCO/django.po. -/
def names_esCO : Names where
  locale := loc_esCO
  names := [
    t!"Afrikáans", t!"Árabe", t!"", t!"Asturiano", t!"Azerí", t!"Bielorruso", t!"Búlgaro", t!"Bengalí", t!"Bretón",
    t!"Bosnio", t!"Catalán", t!"", t!"Checo", t!"Galés", t!"Danés", t!"Alemán", t!"", t!"Griego", t!"Inglés",
    t!"Inglés Australiano", t!"Inglés Británico", t!"Esperanto", t!"Español", t!"Español de Argentina", t!"",
    t!"Español de México", t!"Español de Nicaragua", t!"Español venezolano", t!"Estonio", t!"Vasco", t!"Persa", t!"Finés",
    t!"Francés", t!"Frisón", t!"Irlandés", t!"", t!"Gallego", t!"Hebreo", t!"Hindi", t!"Croata", t!"", t!"Húngaro", t!"",
    t!"Interlingua", t!"Ido", t!"Indonesio", t!"", t!"Islandés", t!"Italiano", t!"Japonés", t!"Georgiano", t!"", t!"Kazajo",
    t!"Khmer", t!"Kannada", t!"Koreano", t!"", t!"Luxenburgués", t!"Lituano", t!"Letón", t!"Macedonio", t!"Malayalam",
    t!"Mongol", t!"Maratí", t!"", t!"Birmano", t!"", t!"Nepalí", t!"Holandés", t!"Nynorsk", t!"", t!"Osetio", t!"Panyabí",
    t!"Polaco", t!"Portugués", t!"Portugués brasileño", t!"Rumano", t!"Ruso", t!"Eslovaco", t!"Esloveno", t!"Albanés",
    t!"Serbio", t!"Serbio latino", t!"Sueco", t!"Suajili", t!"Tamil", t!"Telugu", t!"", t!"Tailandés", t!"", t!"Turco",
    t!"Tártaro", t!"Udmurt", t!"", t!"Ucraniano", t!"Urdu", t!"", t!"Vietnamita", t!"Chino simplificado",
    t!"Chino tradicional"]

/-- /repo/humanize/locale/esMX/django.po. -/
def names_esMX : Names where
  locale := loc_esMX
  names := [
    t!"afrikáans", t!"Árabe", t!"Árabe argelino", t!"Asturiano", t!"Azerbaijani", t!"bielorruso", t!"Búlgaro", t!"Bengalí",
    t!"bretón", t!"Bosnio", t!"Catalán", t!"", t!"Checo", t!"Galés", t!"Danés", t!"Alemán", t!"Bajo sorbio", t!"Griego",
    t!"Inglés", t!"Inglés australiano", t!"Inglés británico", t!"Esperanto", t!"Español", t!"Español de Argentina",
    t!"Español Colombiano", t!"Español de México", t!"Español de nicaragua", t!"español de Venezuela", t!"Estonio",
    t!"Vasco", t!"Persa", t!"Finés", t!"Francés", t!"Frisón", t!"Irlandés", t!"Gaélico escocés", t!"Gallego", t!"Hebreo",
    t!"Hindi", t!"Croata", t!"Alto sorbio", t!"Húngaro", t!"Armenio", t!"Interlingua", t!"Ido", t!"Indonesio", t!"Igbo",
    t!"Islandés", t!"Italiano", t!"Japonés", t!"Georgiano", t!"Cabilio", t!"Kazajstán", t!"Khmer", t!"Kannada", t!"Coreano",
    t!"", t!"luxemburgués", t!"Lituano", t!"Letón", t!"Macedonio", t!"Malayalam", t!"Mongol", t!"", t!"", t!"burmés", t!"",
    t!"Nepal", t!"Holandés", t!"Noruego Nynorsk", t!"", t!"osetio", t!"Punjabi", t!"Polaco", t!"Portugués",
    t!"Portugués de Brasil", t!"Rumano", t!"Ruso", t!"Eslovaco", t!"Esloveno", t!"Albanés", t!"Serbio", t!"Latin Serbio",
    t!"Sueco", t!"Swahili", t!"Tamil", t!"Telugu", t!"", t!"Tailandés", t!"", t!"Turco", t!"Tatar", t!"udmurto", t!"",
    t!"Ucraniano", t!"Urdu", t!"", t!"Vietnamita", t!"Chino simplificado", t!"Chino tradicional"]

/-- /repo/humanize/locale/esVE/django.po. -/
def names_esVE : Names where
  locale := loc_esVE
  names := [
    t!"Afrikáans", t!"Árabe", t!"", t!"Asturiano", t!"Azerí", t!"Bielorruso", t!"Búlgaro", t!"Bengalí", t!"Bretón",
    t!"Bosnio", t!"Catalán", t!"", t!"Checo", t!"Galés", t!"Danés", t!"Alemán", t!"Sorbio Inferior", t!"Griego", t!"Inglés",
    t!"Inglés Australiano", t!"Inglés Británico", t!"Esperanto", t!"Español", t!"Español de Argentina",
    t!"Español de Colombia", t!"Español de México", t!"Español de Nicaragua", t!"Español de Venezuela", t!"Estonio",
    t!"Vazco", t!"Persa", t!"Finlandés", t!"Francés", t!"Frisio", t!"Irlandés", t!"Gaélico Escocés", t!"Galés", t!"Hebreo",
    t!"Hindi", t!"Croata", t!"Sorbio Superior", t!"Húngaro", t!"", t!"Interlingua", t!"Ido", t!"Indonesio", t!"",
    t!"Islandés", t!"Italiano", t!"Japonés", t!"Georgiano", t!"", t!"Kazajo", t!"Khmer", t!"Canarés", t!"Coreano", t!"",
    t!"Luxenburgués", t!"Lituano", t!"Latvio", t!"Macedonio", t!"Malayala", t!"Mongol", t!"Maratí", t!"", t!"Birmano", t!"",
    t!"Nepalí", t!"Holandés", t!"Nynorsk", t!"", t!"Osetio", t!"Punjabi", t!"Polaco", t!"Portugués", t!"Portugués de Brasil",
    t!"Ruman", t!"Ruso", t!"Eslovaco", t!"Eslovenio", t!"Albano", t!"Serbi", t!"Latín Serbio", t!"Sueco", t!"Suajili",
    t!"Tamil", t!"Telugu", t!"", t!"Tailandés", t!"", t!"Turco", t!"Tártaro", t!"Udmurt", t!"", t!"Ucranio", t!"Urdu", t!"",
    t!"Vietnamita", t!"Chino simplificado", t!"Chino tradicional"]

/-- /repo/humanize/locale/et/django.po. -/
def names_et : Names where
  locale := loc_et
  names := [
    t!"afrikaani", t!"araabia", t!"Alžeeria Araabia", t!"astuuria", t!"aserbaidžaani", t!"valgevene", t!"bulgaaria",
    t!"bengali", t!"bretooni", t!"bosnia", t!"katalaani", t!"Keskkurdi keel (sorani)", t!"tšehhi", t!"uelsi", t!"taani",
    t!"saksa", t!"alamsorbi", t!"kreeka", t!"inglise", t!"austraalia inglise", t!"briti inglise", t!"esperanto",
    t!"hispaania", t!"argentiina hispaani", t!"kolumbia hispaania", t!"mehhiko hispaania", t!"nikaraagua hispaania",
    t!"venetsueela hispaania", t!"eesti", t!"baski", t!"pärsia", t!"soome", t!"prantsuse", t!"friisi", t!"iiri",
    t!"šoti gaeli", t!"galiitsia", t!"heebrea", t!"hindi", t!"horvaatia", t!"ülemsorbi", t!"ungari", t!"armeenia",
    t!"interlingua", t!"ido", t!"indoneesi", t!"ibo", t!"islandi", t!"itaalia", t!"jaapani", t!"gruusia", t!"Kabiili",
    t!"kasahhi", t!"khmeri", t!"kannada", t!"korea", t!"kirgiisi", t!"letseburgi", t!"leedu", t!"läti", t!"makedoonia",
    t!"malaia", t!"mongoolia", t!"marathi", t!"malai", t!"birma", t!"", t!"nepali", t!"hollandi", t!"norra (nynorsk)", t!"",
    t!"osseetia", t!"pandžab", t!"poola", t!"portugali", t!"brasiilia portugali", t!"rumeenia", t!"vene", t!"slovaki",
    t!"sloveeni", t!"albaania", t!"serbia", t!"serbia (ladina)", t!"rootsi", t!"suahiili", t!"tamiili", t!"telugu",
    t!"tadžiki", t!"tai", t!"türkmeeni", t!"türgi", t!"tatari", t!"udmurdi", t!"Uiguuri", t!"ukrania", t!"urdu", t!"Usbeki",
    t!"vietnami", t!"lihtsustatud hiina", t!"traditsiooniline hiina"]

/-- /repo/humanize/locale/eu/django.po. -/
def names_eu : Names where
  locale := loc_eu
  names := [
    t!"Afrikaans", t!"Arabiera", t!"Algeriar Arabiera", t!"Asturiera", t!"Azerbaijanera", t!"Bielorrusiera", t!"Bulgariera",
    t!"Bengalera", t!"Bretoia", t!"Bosniera", t!"Katalana", t!"", t!"Txekiera", t!"Galesa", t!"Daniera", t!"Alemana",
    t!"Behe-sorbiera", t!"Greziera", t!"Ingelesa", t!"Australiar ingelesa", t!"Ingelesa", t!"Esperantoa", t!"Gaztelania",
    t!"Gaztelania (Argentina)", t!"Gaztelania (Kolonbia)", t!"Gaztelania (Mexiko)", t!"Gaztelania (Nikaragua)",
    t!"Gaztelania (Venezuela)", t!"Estoniera", t!"Euskara", t!"Persiera", t!"Finlandiera", t!"Frantsesa", t!"Frisiera",
    t!"Irlandako gaelikoa", t!"Eskoziako gaelikoa", t!"Galiziera", t!"Hebreera", t!"Hindi", t!"Kroaziera", t!"Goi-sorbiera",
    t!"Hungariera", t!"Armeniera", t!"Interlingua", t!"Ido", t!"Indonesiera", t!"Igboera", t!"Islandiera", t!"Italiera",
    t!"Japoniera", t!"Georgiera", t!"Kabylera", t!"Kazakhera", t!"Khmerera", t!"Kannada", t!"Koreera", t!"",
    t!"Luxenburgera", t!"Lituaniera", t!"Letoniera", t!"Mazedoniera", t!"Malabarera", t!"Mongoliera", t!"Marathera", t!"",
    t!"Birmaniera", t!"", t!"Nepalera", t!"Nederlandera", t!"Nynorsk (Norvegia)", t!"", t!"Osetiera", t!"Punjabera",
    t!"Poloniera", t!"Portugesa", t!"Portugesa (Brazil)", t!"Errumaniera", t!"Errusiera", t!"Eslovakiera", t!"Esloveniera",
    t!"Albaniera", t!"Serbiera", t!"Serbiera", t!"Suediera", t!"Swahilia", t!"Tamilera", t!"Telugua", t!"", t!"Thailandiera",
    t!"", t!"Turkiera", t!"Tatarera", t!"Udmurtera", t!"", t!"Ukrainera", t!"Urdua", t!"", t!"Vietnamera",
    t!"Txinera (sinpletua)", t!"Txinera (tradizionala)"]

/-- /repo/humanize/locale/fa/django.po. -/
def names_fa : Names where
  locale := loc_fa
  names := [
    t!"آفریکانس", t!"عربی", t!"عربی الجزایری", t!"آستوری", t!"آذربایجانی", t!"بلاروس", t!"بلغاری", t!"بنگالی", t!"برتون",
    t!"بوسنیایی", t!"کاتالونیایی", t!"", t!"چکی", t!"ویلزی", t!"دانمارکی", t!"آلمانی", t!"صربستانی پایین", t!"یونانی",
    t!"انگلیسی", t!"انگلیسی استرالیایی", t!"انگلیسی بریتیش", t!"اسپرانتو", t!"اسپانیایی", t!"اسپانیایی آرژانتینی",
    t!"اسپانیایی کلمبیایی", t!"اسپانیولی مکزیکی", t!"نیکاراگوئه اسپانیایی", t!"ونزوئلا اسپانیایی", t!"استونی", t!"باسکی",
    t!"فارسی", t!"فنلاندی", t!"فرانسوی", t!"فریزی", t!"ایرلندی", t!"گیلیک اسکاتلندی", t!"گالیسیایی", t!"عبری", t!"هندی",
    t!"کرواتی", t!"صربستانی بالا", t!"مجاری", t!"ارمنی", t!"اینترلینگوا", t!"ایدو", t!"اندونزیایی", t!"ایگبو", t!"ایسلندی",
    t!"ایتالیایی", t!"ژاپنی", t!"گرجی", t!"قبایلی", t!"قزاقستان", t!"خمری", t!"کناده‌ای", t!"کره‌ای", t!"قرقیزی",
    t!"لوگزامبورگی", t!"لیتوانی", t!"لتونیایی", t!"مقدونی", t!"مالایایی", t!"مغولی", t!"مِراتی", t!"Malay", t!"برمه‌ای",
    t!"", t!"نپالی", t!"هلندی", t!"نروژی Nynorsk", t!"", t!"آسی", t!"پنجابی", t!"لهستانی", t!"پرتغالی", t!"پرتغالیِ برزیل",
    t!"رومانی", t!"روسی", t!"اسلواکی", t!"اسلووِنی", t!"آلبانیایی", t!"صربی", t!"صربی لاتین", t!"سوئدی", t!"سواحیلی",
    t!"تامیلی", t!"تلوگویی", t!"تاجیک", t!"تایلندی", t!"ترکمن", t!"ترکی", t!"تاتار", t!"ادمورت", t!"", t!"اکراینی", t!"اردو",
    t!"ازبکی", t!"ویتنامی", t!"چینی ساده‌شده", t!"چینی سنتی"]

/-- /repo/humanize/locale/fi/django.po. -/
def names_fi : Names where
  locale := loc_fi
  names := [
    t!"afrikaans", t!"arabia", t!"Algerian arabia", t!"asturian kieli", t!"azeri", t!"valkovenäjän kieli", t!"bulgaria",
    t!"bengali", t!"bretoni", t!"bosnia", t!"katalaani", t!"Keskikurdi (sorani)", t!"tšekki", t!"wales", t!"tanska",
    t!"saksa", t!"Alasorbi", t!"kreikka", t!"englanti", t!"australianenglanti", t!"brittienglanti", t!"esperanto",
    t!"espanja", t!"Argentiinan espanja", t!"Kolumbian espanja", t!"Meksikon espanja", t!"Nicaraguan espanja",
    t!"Venezuelan espanja", t!"viro", t!"baski", t!"persia", t!"suomi", t!"ranska", t!"friisi", t!"irlanti",
    t!"skottilainen gaeli", t!"galicia", t!"heprea", t!"hindi", t!"kroatia", t!"Yläsorbi", t!"unkari", t!"armenian kieli",
    t!"interlingua", t!"ido", t!"indonesia", t!"igbo", t!"islanti", t!"italia", t!"japani", t!"georgia", t!"Kabyle",
    t!"kazakin kieli", t!"khmerin kieli", t!"kannada", t!"korea", t!"kirgiisi", t!"luxemburgin kieli", t!"liettua",
    t!"latvia", t!"makedonia", t!"malajalam", t!"mongolia", t!"marathi", t!"malaiji", t!"burman kieli", t!"",
    t!"nepalin kieli", t!"hollanti", t!"norja (uusnorja)", t!"", t!"osseetin kieli", t!"punjabin kieli", t!"puola",
    t!"portugali", t!"brasilian portugali", t!"romania", t!"venäjä", t!"slovakia", t!"slovenia", t!"albaani", t!"serbia",
    t!"serbian latina", t!"ruotsi", t!"swahili", t!"tamili", t!"telugu", t!"tadžikki", t!"thain kieli", t!"turkmeeni",
    t!"turkki", t!"tataarin kieli", t!"udmurtti", t!"uiguuri", t!"ukraina", t!"urdu", t!"uzbekki", t!"vietnam",
    t!"kiina (yksinkertaistettu)", t!"kiina (perinteinen)"]

/-- /repo/humanize/locale/fr/django.po. -/
def names_fr : Names where
  locale := loc_fr
  names := [
    t!"Afrikaans", t!"Arabe", t!"Arabe algérien", t!"Asturien", t!"Azéri", t!"Biélorusse", t!"Bulgare", t!"Bengali",
    t!"Breton", t!"Bosniaque", t!"Catalan", t!"Kurde central (sorani)", t!"Tchèque", t!"Gallois", t!"Danois", t!"Allemand",
    t!"Bas-sorabe", t!"Grec", t!"Anglais", t!"Anglais australien", t!"Anglais britannique", t!"Espéranto", t!"Espagnol",
    t!"Espagnol argentin", t!"Espagnol colombien", t!"Espagnol mexicain", t!"Espagnol nicaraguayen",
    t!"Espagnol vénézuélien", t!"Estonien", t!"Basque", t!"Perse", t!"Finlandais", t!"Français", t!"Frison", t!"Irlandais",
    t!"Gaélique écossais", t!"Galicien", t!"Hébreu", t!"Hindi", t!"Croate", t!"Haut-sorabe", t!"Hongrois", t!"Arménien",
    t!"Interlingua", t!"Ido", t!"Indonésien", t!"Igbo", t!"Islandais", t!"Italien", t!"Japonais", t!"Géorgien", t!"Kabyle",
    t!"Kazakh", t!"Khmer", t!"Kannada", t!"Coréen", t!"Kirghiz", t!"Luxembourgeois", t!"Lituanien", t!"Letton",
    t!"Macédonien", t!"Malayalam", t!"Mongole", t!"Marathi", t!"Malais", t!"Birman", t!"", t!"Népalais", t!"Néerlandais",
    t!"Norvégien nynorsk", t!"", t!"Ossète", t!"Penjabi", t!"Polonais", t!"Portugais", t!"Portugais brésilien", t!"Roumain",
    t!"Russe", t!"Slovaque", t!"Slovène", t!"Albanais", t!"Serbe", t!"Serbe latin", t!"Suédois", t!"Swahili", t!"Tamoul",
    t!"Télougou", t!"Tadjik", t!"Thaï", t!"Turkmène", t!"Turc", t!"Tatar", t!"Oudmourte", t!"Ouïghour", t!"Ukrainien",
    t!"Ourdou", t!"Ouzbek", t!"Vietnamien", t!"Chinois simplifié", t!"Chinois traditionnel"]

/-- /repo/humanize/locale/fy/django.po. -/
def names_fy : Names where
  locale := loc_fy
  names := [
    t!"", t!"", t!"", t!"", t!"", t!"", t!"", t!"", t!"", t!"", t!"", t!"", t!"", t!"", t!"", t!"", t!"", t!"", t!"", t!"",
    t!"", t!"", t!"", t!"", t!"", t!"", t!"", t!"", t!"", t!"", t!"", t!"", t!"", t!"", t!"", t!"", t!"", t!"", t!"", t!"",
    t!"", t!"", t!"", t!"", t!"", t!"", t!"", t!"", t!"", t!"", t!"", t!"", t!"", t!"", t!"", t!"", t!"", t!"", t!"", t!"",
    t!"", t!"", t!"", t!"", t!"", t!"", t!"", t!"", t!"", t!"", t!"", t!"", t!"", t!"", t!"", t!"", t!"", t!"", t!"", t!"",
    t!"", t!"", t!"", t!"", t!"", t!"", t!"", t!"", t!"", t!"", t!"", t!"", t!"", t!"", t!"", t!"", t!"", t!"", t!"", t!""]

/-- /repo/humanize/locale/ga/django.po. -/
def names_ga : Names where
  locale := loc_ga
  names := [
    t!"Afracáinis", t!"Araibis", t!"Araibis na hAilgéire", t!"Astúiris", t!"Asarbaiseáinis", t!"Bealarúisis", t!"Bulgáiris",
    t!"Beangáilis", t!"Briotánach", t!"Boisnis", t!"Catalóinis", t!"Coirdis Láir (Sorani)", t!"Seicis", t!"Breatnais",
    t!"Danmhairgis ", t!"Gearmáinis", t!"Sorbais Íochtarach", t!"Gréigis", t!"Béarla", t!"Béarla Astrálach",
    t!"Béarla na Breataine", t!"Esperanto", t!"Spáinnis", t!"Spáinnis na hAirgintíne", t!"Spáinnis na Colóime",
    t!"Spáinnis Mheicsiceo ", t!"Spáinnis Nicearagua", t!"Spáinnis Veiniséalach", t!"Eastóinis", t!"Bascais", t!"Peirsis",
    t!"Fionlainnis", t!"Fraincis", t!"Freaslainnis", t!"Gaeilge", t!"Gaeilge na hAlban", t!"Gailísis", t!"Eabhrais",
    t!"Hiondúis", t!"Cróitis", t!"Sorbian Uachtarach", t!"Ungáiris", t!"Airméinis", t!"Interlingua", t!"Ido", t!"Indinéisis",
    t!"Igbo", t!"Íoslainnis", t!"Iodáilis", t!"Seapáinis", t!"Seoirsis", t!"Cabaill", t!"Casaicis", t!"Ciméiris",
    t!"Cannadais", t!"Cóiréis", t!"Chirgeastáin", t!"Lucsamburgach", t!"Liotuáinis", t!"Laitvis", t!"Macadóinis",
    t!"Mailéalaimis", t!"Mongóilis", t!"Maraitis", t!"Malaeis", t!"Burmais", t!"", t!"Neipeailis", t!"Ollainnis",
    t!"Ioruais Nynorsk", t!"", t!"Oiséitis", t!"Puinseáibis", t!"Polainnis", t!"Portaingéilis",
    t!"Portaingéilis na Brasaíle", t!"Rómáinis", t!"Rúisis", t!"Slóvaicis", t!"Slóivéinis", t!"Albáinis", t!"Seirbis",
    t!"Seirbis (Laidineach)", t!"Sualainnis", t!"Svahaílis", t!"Tamailis", t!"Teileagúis", t!"Táidsíc", t!"Téalainnis",
    t!"Tuircméinis", t!"Tuircis", t!"Tatairis", t!"Udmurt", t!"Uighur", t!"Úcráinis", t!"Urdais", t!"Úisbéicis",
    t!"Vítneamais", t!"Sínis Simplithe", t!"Sínis Traidisiúnta"]

/-- /repo/humanize/locale/gd/django.po. -/
def names_gd : Names where
  locale := loc_gd
  names := [
    t!"Afraganais", t!"Arabais", t!"Arabais Aildireach", t!"Astùrais", t!"Asarbaideànais", t!"Bealaruisis", t!"Bulgarais",
    t!"Beangailis", t!"Breatnais", t!"Bosnais", t!"Catalanais", t!"", t!"Seacais", t!"Cuimris", t!"Danmhairgis",
    t!"Gearmailtis", t!"Sòrbais Ìochdarach", t!"Greugais", t!"Beurla", t!"Beurla Astràilia", t!"Beurla Bhreatainn",
    t!"Esperanto", t!"Spàinntis", t!"Spàinntis na h-Argantaine", t!"Spàinntis Choloimbia", t!"Spàinntis Mheagsagach",
    t!"Spàinntis Niocaragua", t!"Spàinntis na Bheiniseala", t!"Eastoinis", t!"Basgais", t!"Farsaidh", t!"Fionnlannais",
    t!"Fraingis", t!"Frìsis", t!"Gaeilge", t!"Gàidhlig", t!"Gailìsis", t!"Eabhra", t!"Hindis", t!"Cròthaisis",
    t!"Sòrbais Uachdarach", t!"Ungairis", t!"Airmeinis", t!"Interlingua", t!"Ido", t!"Innd-Innsis", t!"Igbo",
    t!"Innis Tìlis", t!"Eadailtis", t!"Seapanais", t!"Cairtbheilis", t!"Kabyle", t!"Casachais", t!"Cmèar", t!"Kannada",
    t!"Coirèanais", t!"Cìorgasais", t!"Lugsamburgais", t!"Liotuainis", t!"Laitbheis", t!"Masadonais", t!"Malayalam",
    t!"Mongolais", t!"Marathi", t!"Malaidhis", t!"Burmais", t!"", t!"Neapàlais", t!"Duitsis", t!"Nirribhis (Nynorsk)", t!"",
    t!"Ossetic", t!"Panjabi", t!"Pòlainnis", t!"Portagailis", t!"Portagailis Bhraisileach", t!"Romàinis", t!"Ruisis",
    t!"Slòbhacais", t!"Slòbhainis", t!"Albàinis", t!"Sèirbis", t!"Sèirbis (Laideann)", t!"Suainis", t!"Kiswahili",
    t!"Taimilis", t!"Telugu", t!"Taidigis", t!"Tàidh", t!"Turcmanais", t!"Turcais", t!"Tatarais", t!"Udmurt", t!"",
    t!"Ucràinis", t!"Ùrdu", t!"Usbagais", t!"Bhiet-Namais", t!"Sìnis Shimplichte", t!"Sìnis Thradaiseanta"]

/-- /repo/humanize/locale/gl/django.po. -/
def names_gl : Names where
  locale := loc_gl
  names := [
    t!"Africáner", t!"Árabe", t!"Árabe Arxelino", t!"Asturiano", t!"Azerí", t!"Bielorruso", t!"Búlgaro", t!"Bengalí",
    t!"Bretón", t!"Bosníaco", t!"Catalán", t!"Kurdo Central (Sorani)", t!"Checo", t!"Galés", t!"Dinamarqués", t!"Alemán",
    t!"Baixo Sorabo", t!"Grego", t!"Inglés", t!"Inglés australiano", t!"inglés británico", t!"Esperanto", t!"Español",
    t!"Español da Arxentina", t!"Español de Colombia", t!"Español de México", t!"Español de Nicaragua",
    t!"Español de Venezuela", t!"Estoniano", t!"Vasco", t!"Persa", t!"Finés", t!"Francés", t!"Frisón", t!"Irlandés",
    t!"Gaélico Escocés", t!"Galego", t!"Hebreo", t!"Hindi", t!"Croata", t!"Alto Sorabo", t!"Húngaro", t!"Armenio",
    t!"Interlingua", t!"Ido", t!"Indonesio", t!"Ibo", t!"Islandés", t!"Italiano", t!"Xaponés", t!"Xeorxiano", t!"Cabilio",
    t!"Casaco", t!"Camboxano", t!"Canará", t!"Coreano", t!"Kirguiz", t!"Luxemburgués", t!"Lituano", t!"Letón", t!"Macedonio",
    t!"Mala", t!"Mongol", t!"Marathi", t!"Malaio", t!"Birmano", t!"", t!"Nepalés", t!"Holandés", t!"Noruegués (nynorsk)",
    t!"", t!"Osetio", t!"Panxabiano", t!"Polaco", t!"Portugués", t!"Portugués do Brasil", t!"Romanés", t!"Ruso",
    t!"Eslovaco", t!"Esloveno", t!"Albanés", t!"Serbio", t!"Serbio (alfabeto latino)", t!"Sueco", t!"Suahili", t!"Támil",
    t!"Telugu", t!"Taxico", t!"Tai", t!"Turcomá", t!"Turco", t!"Tártaro", t!"Udmurt", t!"Uigur", t!"Ucraíno", t!"Urdu",
    t!"Uzbeco", t!"Vietnamita", t!"Chinés simplificado", t!"Chinés tradicional"]

/-- /repo/humanize/locale/he/django.po. -/
def names_he : Names where
  locale := loc_he
  names := [
    t!"אפריקאנס", t!"ערבית", t!"ערבית אלג'ירית", t!"אסטורית", t!"אזרית", t!"בֶּלָרוּסִית", t!"בולגרית", t!"בנגאלית",
    t!"בְּרֶטוֹנִית", t!"בוסנית", t!"קאטלונית", t!"כורדית מרכזית (סוראני)", t!"צ'כית", t!"וולשית", t!"דנית", t!"גרמנית",
    t!"סורבית תחתונה", t!"יוונית", t!"אנגלית", t!"אנגלית אוסטרלית", t!"אנגלית בריטית", t!"אספרנטו", t!"ספרדית",
    t!"ספרדית ארגנטינית", t!"ספרדית קולומביאנית", t!"ספרדית מקסיקנית", t!"ספרדית ניקרגואה", t!"ספרדית ונצואלית", t!"אסטונית",
    t!"בסקית", t!"פרסית", t!"פינית", t!"צרפתית", t!"פריזית", t!"אירית", t!"גאלית סקוטית", t!"גאליציאנית", t!"עברית",
    t!"הינדי", t!"קרואטית", t!"סורבית עילית", t!"הונגרית", t!"ארמנית", t!"אינטרלינגואה", t!"אידו", t!"אינדונזית", t!"איגבו",
    t!"איסלנדית", t!"איטלקית", t!"יפנית", t!"גיאורגית", t!"קבילה", t!"קזחית", t!"חמר", t!"קאנאדה", t!"קוריאנית",
    t!"קירגיזית", t!"לוקסמבורגית", t!"ליטאית", t!"לטבית", t!"מקדונית", t!"מלאיאלאם", t!"מונגולי", t!"מראטהי", t!"מלאית",
    t!"בּוּרְמֶזִית", t!"", t!"נפאלית", t!"הולנדית", t!"נורבגית חדשה", t!"", t!"אוסטית", t!"פנג'אבי", t!"פולנית",
    t!"פורטוגזית", t!"פורטוגזית ברזילאית", t!"רומנית", t!"רוסית", t!"סלובקית", t!"סלובנית", t!"אלבנית", t!"סרבית",
    t!"סרבית לטינית", t!"שוודית", t!"סווהילי", t!"טמילית", t!"טלגו", t!"טג'יקית", t!"תאילנדית", t!"טורקמנית", t!"טורקית",
    t!"טטרית", t!"אודמורטית", t!"אויגורית", t!"אוקראינית", t!"אורדו", t!"אוזבקית", t!"וייטנאמית", t!"סינית פשוטה",
    t!"סינית מסורתית"]

/-- /repo/humanize/locale/hi/django.po. -/
def names_hi : Names where
  locale := loc_hi
  names := [
    t!"अफ़्रीकांस", t!"अरबी", t!"अल्जीरियाई अरब", t!"", t!"आज़रबाइजानी", t!"बेलारूसी", t!"बलगारियन", t!"बंगाली", t!"ब्रेटन",
    t!"बोस्नियन", t!"कटलान", t!"", t!"च्चेक", t!"वेल्श", t!"दानिश", t!"जर्मन", t!"", t!"ग्रीक", t!"अंग्रेज़ी ",
    t!"ऑस्ट्रेलियाई अंग्रेज़ी ", t!"ब्रिटिश अंग्रेजी", t!"एस्परेन्तो", t!"स्पानिश", t!"अर्जेंटीना स्पैनिश ",
    t!"कोलंबियाई स्पेनी", t!"मेक्सिकन स्पैनिश", t!"निकारागुआ स्पैनिश", t!"वेनेज़ुएलाई स्पेनिश", t!"एस्टोनियन", t!"बास्क",
    t!"पारसी", t!"फ़िन्निश", t!"फ्रेंच", t!"फ्रिसियन", t!"आयरिश", t!"", t!"गलिशियन", t!"हि‍ब्रू", t!"हिंदी", t!"क्रोयेशियन",
    t!"", t!"हंगेरियन", t!"", t!"इंतर्लिंगुआ", t!"", t!"इन्डोनेशियन ", t!"", t!"आयिस्लान्डिक", t!"इटैलियन", t!"जपानी",
    t!"ज्योर्जियन", t!"", t!"कज़ाख", t!"ख्मेर", t!"कन्‍नड़", t!"कोरियन", t!"", t!"लक्संबर्गी", t!"लिथुवेनियन", t!"लात्वियन",
    t!"मेसिडोनियन", t!"मलयालम", t!"मंगोलियन", t!"मराठी", t!"मलय भाषा", t!"बर्मीज़", t!"", t!"नेपाली", t!"डच",
    t!"नार्वेजियन नायनॉर्स्क", t!"", t!"ओस्सेटिक", t!"पंजाबी", t!"पोलिश", t!"पुर्तगाली", t!"ब्रजिलियन पुर्तगाली",
    t!"रोमानियन", t!"रूसी", t!"स्लोवाक", t!"स्लोवेनियन", t!"अल्बेनियन्", t!"सर्बियन", t!"सर्बियाई लैटिन", t!"स्वीडिश",
    t!"स्वाहिली", t!"तमिल", t!"तेलुगु", t!"", t!"थाई", t!"", t!"तुर्किश", t!"तातार", t!"उद्मर्त", t!"", t!"यूक्रानियन",
    t!"उर्दू", t!"उज़्बेक", t!"वियतनामी", t!"सरल चीनी", t!"पारम्परिक चीनी"]

/-- /repo/humanize/locale/hr/django.po. -/
def names_hr : Names where
  locale := loc_hr
  names := [
    t!"Afrikaans", t!"Arapski", t!"", t!"Asturijski", t!"Azarbejdžanac", t!"Bjeloruski", t!"Unesite ispravnu IPv4 adresu.",
    t!"Bengalski", t!"Bretonski", t!"Bošnjački", t!"Katalanski", t!"", t!"Češki", t!"Velški", t!"Danski", t!"Njemački",
    t!"Donjolužičkosrpski", t!"Grčki", t!"Engleski", t!"Australski engleski", t!"Britanski engleski", t!"Esperanto",
    t!"Španjolski", t!"Argentinski španjolski", t!"Kolumbijski španjolski", t!"Meksički španjolski",
    t!"Nikaragvanski Španjolski", t!"Venezuelanski Španjolski", t!"Estonski", t!"Baskijski", t!"Perzijski", t!"Finski",
    t!"Francuski", t!"Frizijski", t!"Irski", t!"Škotski gaelski", t!"Galičanski", t!"Hebrejski", t!"Hindi", t!"Hrvatski",
    t!"Gornjolužičkosrpski", t!"Mađarski", t!"", t!"Interlingua", t!"Ido", t!"Indonezijski", t!"", t!"Islandski",
    t!"Talijanski", t!"Japanski", t!"Gruzijski", t!"", t!"Kazaški", t!"Kambođanski", t!"Kannada", t!"Koreanski", t!"",
    t!"Luksemburški", t!"Litvanski", t!"Latvijski", t!"Makedonski", t!"Malayalam", t!"Mongolski", t!"Marathi", t!"",
    t!"Burmanski", t!"", t!"Nepalski", t!"Nizozemski", t!"Norveški Nynorsk", t!"", t!"Osetski", t!"Pendžabljanin",
    t!"Poljski", t!"Portugalski", t!"Brazilski portugalski", t!"Rumunjski", t!"Ruski", t!"Slovački", t!"Slovenski",
    t!"Albanski", t!"Srpski", t!"Latinski srpski", t!"Švedski", t!"Swahili", t!"Tamilski", t!"Teluški", t!"",
    t!"Thai (tajlandski)", t!"", t!"Turski", t!"Tatarski", t!"Udmurtski", t!"", t!"Ukrajinski", t!"Urdu", t!"",
    t!"Vijetnamski", t!"Pojednostavljeni kineski", t!"Tradicionalni kineski"]

/-- /repo/humanize/locale/hsb/django.po. -/
def names_hsb : Names where
  locale := loc_hsb
  names := [
    t!"Afrikaanšćina", t!"Arabšćina", t!"Algeriska arabšćina", t!"Asturišćina", t!"Azerbajdźanšćina", t!"Běłorušćina",
    t!"Bołharšćina", t!"Bengalšćina", t!"Bretonšćina", t!"Bosnišćina", t!"Katalanšćina", t!"Centralna kurdišćina (Sorani)",
    t!"Čěšćina", t!"Walizišćina", t!"Danšćina", t!"Němčina", t!"Delnjoserbšćina", t!"Grjekšćina", t!"Jendźelšćina",
    t!"Awstralska jendźelšćina", t!"Britiska jendźelšćina", t!"Esperanto", t!"Španišćina", t!"Argentinska španišćina",
    t!"Kolumbiska španišćina", t!"Mexiska španišćina", t!"Nikaraguaska španišćina", t!"Venezuelska španišćina",
    t!"Estišćina", t!"Baskišćina", t!"Persišćina", t!"Finšćina", t!"Francošćina", t!"Frizišćina", t!"Irišćina",
    t!"Šotiska gaelšćina", t!"Galicišćina", t!"Hebrejšćina", t!"Hindišćina", t!"Chorwatšćina", t!"Hornjoserbšćina",
    t!"Madźaršćina", t!"Armenšćina", t!"Interlingua", t!"Ido", t!"Indonezišćina", t!"Igbo", t!"Islandšćina", t!"Italšćina",
    t!"Japanšćina", t!"Georgišćina", t!"Kabylšćina", t!"Kazachšćina", t!"Khmeršćina", t!"Kannadšćina", t!"Korejšćina",
    t!"Kirgišćina", t!"Luxemburgšćina", t!"Litawšćina", t!"Letišćina", t!"Makedonšćina", t!"Malajalam", t!"Mongolšćina",
    t!"Marathišćina", t!"Malajšćina", t!"Myanmaršćina", t!"", t!"Nepalšćina", t!"Nižozemšćina", t!"Norwegski nynorsk", t!"",
    t!"Osetšćina", t!"Pundźabišćina", t!"Pólšćina", t!"Portugalšćina", t!"Brazilska portugalšćina", t!"Rumunšćina",
    t!"Rušćina", t!"Słowakšćina", t!"Słowjenšćina", t!"Albanšćina", t!"Serbišćina", t!"Serbšćina, łaćonska", t!"Šwedšćina",
    t!"Suahelšćina", t!"Tamilšćina", t!"Telugušćina", t!"Tadźikišćina", t!"Thaišćina", t!"Turkmenšćina", t!"Turkowšćina",
    t!"Tataršćina", t!"Udmurtšćina", t!"Ujguršćina", t!"Ukrainšćina", t!"Urdušćina", t!"Uzbekšćina", t!"Vietnamšćina",
    t!"Zjednorjene chinšćina", t!"Tradicionalna chinšćina"]

/-- /repo/humanize/locale/hu/django.po. -/
def names_hu : Names where
  locale := loc_hu
  names := [
    t!"Afrikaans", t!"Arab", t!"algériai arab", t!"Asztúriai", t!"azerbajdzsáni", t!"Belarusz", t!"Bolgár", t!"Bengáli",
    t!"Breton", t!"Bosnyák", t!"Katalán", t!"Közép-kurd (szoráni)", t!"Cseh", t!"Walesi", t!"Dán", t!"Német", t!"Alsószorb",
    t!"Görög", t!"Angol", t!"Ausztráliai angol", t!"Brit angol", t!"Eszperantó", t!"Spanyol", t!"Argentin spanyol",
    t!"Kolumbiai spanyol", t!"Mexikói spanyol", t!"Nicaraguai spanyol", t!"Venezuelai spanyol", t!"Észt", t!"Baszk ",
    t!"Perzsa", t!"Finn", t!"Francia", t!"Fríz", t!"Ír", t!"Skót gael", t!"Gall", t!"Héber", t!"Hindi", t!"Horvát",
    t!"Felsőszorb", t!"Magyar", t!"Örmény", t!"Interlingua", t!"Ido", t!"Indonéz", t!"igbo", t!"Izlandi", t!"Olasz",
    t!"Japán", t!"Grúz", t!"Kabil", t!"Kazak", t!"Khmer", t!"Kannada", t!"Koreai", t!"kirgiz", t!"Luxemburgi", t!"Litván",
    t!"Lett", t!"Macedón", t!"Malajálam", t!"Mongol", t!"Maráthi", t!"Maláj", t!"Burmai", t!"", t!"Nepáli", t!"Holland",
    t!"Nynorsk norvég", t!"", t!"Oszét", t!"Punjabi", t!"Lengyel", t!"Portugál", t!"Brazíliai portugál", t!"Román",
    t!"Orosz", t!"Szlovák", t!"Szlovén", t!"Albán", t!"Szerb", t!"Latin betűs szerb", t!"Svéd", t!"Szuahéli", t!"Tamil",
    t!"Telugu", t!"Tádzsik", t!"Thai", t!"Türkmén", t!"Török", t!"Tatár", t!"Udmurt", t!"Ujgur", t!"Ukrán", t!"urdu",
    t!"Üzbég", t!"Vietnámi", t!"Egyszerű kínai", t!"Hagyományos kínai"]

/-- /repo/humanize/locale/hy/django.po. -/
def names_hy : Names where
  locale := loc_hy
  names := [
    t!"Աֆրիկաանս", t!"Արաբերեն", t!"", t!"Աստուրերեն", t!"Ադրբեջաներեն", t!"Բելոռուսերեն", t!"Բուլղարերեն", t!"Բենգալերեն",
    t!"Բրետոներեն", t!"Բոսնիերեն", t!"Կատալաներեն", t!"", t!"Չեխերեն", t!"Վալլիերեն", t!"Դանիերեն", t!"Գերմաներեն", t!"",
    t!"Հունարեն", t!"Անգլերեն", t!"Ավստրալական Անգլերեն", t!"Բրիտանական Անգլերեն", t!"Էսպերանտո", t!"Իսպաներեն",
    t!"Արգենտինական իսպաներեն", t!"Կոլումբիական իսպաներեն", t!"Մեքսիկական իսպաներեն", t!"Նիկարագուական իսպաներեն",
    t!"Վենեսուելլական իսպաներեն", t!"Էստոներեն", t!"Բասկերեն", t!"Պարսկերեն", t!"Ֆիներեն", t!"Ֆրանսերեն", t!"Ֆրիզերեն",
    t!"Իռլանդերեն", t!"Գելական շոտլանդերեն", t!"Գալիսերեն", t!"Եբրայերեն", t!"Հինդի", t!"Խորվաթերեն", t!"", t!"Հունգարերեն",
    t!"", t!"Ինտերլինգուա", t!"Իդո", t!"Ինդոնեզերեն", t!"", t!"Իսլանդերեն", t!"Իտալերեն", t!"Ճապոներեն", t!"Վրացերեն", t!"",
    t!"Ղազախերեն", t!"Քեմերերեն", t!"Կանադա", t!"Կորեերեն", t!"", t!"Լյուքսեմբուրգերեն", t!"Լիտվերեն", t!"Լատիշերեն",
    t!"Մակեդոներեն", t!"Մալայալամ", t!"Մոնղոլերեն", t!"Մարատխի", t!"", t!"Բիրմաներեն", t!"", t!"Նեպալերեն", t!"Հոլանդերեն",
    t!"Նորվեգերեն (Նյունորսկ)", t!"", t!"Օսերեն", t!"Փանջաբի", t!"Լեհերեն", t!"Պորտուգալերեն", t!"Բրազիլական պորտուգալերեն",
    t!"Ռումիներեն", t!"Ռուսերեն", t!"Սլովակերեն", t!"Սլովեներեն", t!"Ալբաներեն", t!"Սերբերեն", t!"Սերբերեն (լատինատառ)",
    t!"Շվեդերեն", t!"Սվահիլի", t!"Թամիլերեն", t!"Թելուգու", t!"", t!"Թայերեն", t!"", t!"Թուրքերեն", t!"Թաթարերեն",
    t!"Ումուրտերեն", t!"", t!"Ուկրաիներեն", t!"Ուրդու", t!"", t!"Վիետնամերեն", t!"Հեշտացված չինարեն", t!"Ավանդական չինարեն"]

/-- /repo/humanize/locale/ia/django.po. -/
def names_ia : Names where
  locale := loc_ia
  names := [
    t!"afrikaans", t!"arabe", t!"Arabe algerian", t!"asturiano", t!"azeri", t!"bielorusso", t!"bulgaro", t!"bengali",
    t!"breton", t!"bosniaco", t!"catalano", t!"", t!"tcheco", t!"gallese", t!"danese", t!"germano", t!"sorabo inferior",
    t!"greco", t!"anglese", t!"anglese australian", t!"anglese britannic", t!"esperanto", t!"espaniol",
    t!"espaniol argentin", t!"espaniol colombian", t!"espaniol mexican", t!"espaniol nicaraguan", t!"espaniol venzuelan",
    t!"estoniano", t!"basco", t!"persiano", t!"finnese", t!"francese", t!"frison", t!"irlandese", t!"gaelico scotese",
    t!"galiciano", t!"hebreo", t!"hindi", t!"croato", t!"sorabo superior", t!"hungaro", t!"Armenio", t!"interlingua",
    t!"ido", t!"indonesiano", t!"Igbo", t!"islandese", t!"italiano", t!"japonese", t!"georgiano", t!"Kabyle", t!"kazakh",
    t!"khmer", t!"kannada", t!"coreano", t!"Kyrgyz", t!"luxemburgese", t!"lituano", t!"letton", t!"macedone", t!"malayalam",
    t!"mongolico", t!"marathi", t!"", t!"burmese", t!"", t!"nepali", t!"hollandese", t!"norvegiano, nynorsk", t!"",
    t!"ossetico", t!"punjabi", t!"polonese", t!"portugese", t!"portugese brasilian", t!"romaniano", t!"russo", t!"slovaco",
    t!"sloveno", t!"albanese", t!"serbo", t!"serbo latin", t!"svedese", t!"swahili", t!"tamil", t!"telugu", t!"Tadzhik",
    t!"thailandese", t!"Turkmen", t!"turco", t!"tartaro", t!"udmurto", t!"", t!"ukrainiano", t!"urdu", t!"Uzbek",
    t!"vietnamese", t!"chinese simplificate", t!"chinese traditional"]

/-- /repo/humanize/locale/id/django.po. -/
def names_id : Names where
  locale := loc_id
  names := [
    t!"Afrikaans", t!"Arab", t!"Arab Aljazair", t!"Asturia", t!"Azerbaijani", t!"Belarusia", t!"Bulgaria", t!"Bengali",
    t!"Breton", t!"Bosnia", t!"Catalan", t!"Kurdi Tengah (Sorani)", t!"Ceska", t!"Wales", t!"Denmark", t!"Jerman",
    t!"Sorbian Bawah", t!"Yunani", t!"Inggris", t!"Inggris Australia", t!"Inggris Britania", t!"Esperanto", t!"Spanyol",
    t!"Spanyol Argentina", t!"Spanyol Kolombia", t!"Spanyol Meksiko", t!"Spanyol Nikaragua", t!"Spanyol Venezuela",
    t!"Estonia", t!"Basque", t!"Persia", t!"Finlandia", t!"Perancis", t!"Frisia", t!"Irlandia", t!"Skolandia Gaelik",
    t!"Galicia", t!"Ibrani", t!"Hindi", t!"Kroasia", t!"Sorbian Atas", t!"Hungaria", t!"Armenia", t!"Interlingua", t!"Ido",
    t!"Indonesia", t!"Igbo", t!"Islandia", t!"Italia", t!"Jepang", t!"Georgia", t!"Kabyle", t!"Kazakhstan", t!"Khmer",
    t!"Kannada", t!"Korea", t!"Kirgis", t!"Luksemburg", t!"Lithuania", t!"Latvia", t!"Makedonia", t!"Malayalam",
    t!"Mongolia", t!"Marathi", t!"Malaysia", t!"Burma", t!"", t!"Nepal", t!"Belanda", t!"Norwegia Nynorsk", t!"",
    t!"Ossetic", t!"Punjabi", t!"Polandia", t!"Portugis", t!"Portugis Brazil", t!"Romania", t!"Rusia", t!"Slovakia",
    t!"Slovenia", t!"Albania", t!"Serbia", t!"Serbia Latin", t!"Swedia", t!"Swahili", t!"Tamil", t!"Telugu", t!"Tajik",
    t!"Thailand", t!"Turkmenistan", t!"Turki", t!"Tatar", t!"Udmurt", t!"Uyghur", t!"Ukrainia", t!"Urdu", t!"Uzbek",
    t!"Vietnam", t!"Tiongkok Sederhana", t!"Tiongkok Tradisionil"]

/-- /repo/humanize/locale/ig/django.po. -/
def names_ig : Names where
  locale := loc_ig
  names := [
    t!"Afrikaans", t!"Arabici", t!"Arabici ndị Algeria  ", t!"Asturian", t!"Azerbaijani", t!"Belarusia", t!"Bulgaria",
    t!"Bengali", t!"Breton", t!"Bosnian", t!"Catalan", t!"", t!"Czech", t!"Welsh", t!"Danishi", t!"Germani",
    t!"Sorbian nke Ala", t!"Greeki", t!"Bekee", t!"Bekee ndị Australia", t!"Bekee ndị Britain", t!"Esperanto", t!"Spanishi",
    t!"Spanishi ndị Argentina", t!"Spanishi ndị Colombia ", t!"Spanishi ndị Mexico ", t!"Spanishi ndị Nicaraguan",
    t!"Spanishi ndị Venezuela ", t!"Estonian", t!"Basque", t!"Persian", t!"Finnishi", t!"Fụrenchị", t!"Frisian", t!"Irishi",
    t!"Scottish Gaelici", t!"Galiciani", t!"Hibru", t!"Hindi", t!"Croatian", t!"Sorbian nke Elu", t!"Hungarian",
    t!"Armeniani", t!"Interlingua", t!"Ido", t!"Indonesian", t!"ìgbò", t!"Icelandici", t!"Italian", t!"Japanisi ",
    t!"Georgian", t!"Kabyle", t!"Kazakh", t!"Khmer", t!"Kannada", t!"Korean", t!"Kyrgyz", t!"Luxembourgish", t!"Lithuanian",
    t!"Latvian", t!"Macedonian", t!"Malayalam", t!"Mongolian", t!"Marathi", t!"", t!"Burmese", t!"", t!"Nepali", t!"Dutch",
    t!"Nynorsk ndị Norway ", t!"", t!"Ossetici", t!"Punjabi", t!"Polishi", t!"Portuguisi", t!"Portuguese ndị Brazil",
    t!"Romaniani", t!"Russiani", t!"Slovaki", t!"Sloveniani", t!"Albaniani", t!"Serbiani", t!"Serbian Latini", t!"Swedishi",
    t!"Swahili", t!"Tamil", t!"Telugu", t!"Tajik", t!"Thai", t!"Turkmen", t!"Turkishi", t!"Tatar", t!"Udmurt", t!"",
    t!"Ukrainiani", t!"Urdu", t!"Uzbeki", t!"Vietnamesi", t!"Chinisi Ndị Mfe", t!"Odịnala Chinisi"]

/-- /repo/humanize/locale/io/django.po. -/
def names_io : Names where
  locale := loc_io
  names := [
    t!"Afrikaans", t!"العربية", t!"", t!"", t!"Azərbaycanca", t!"беларуская", t!"български", t!"বাংলা", t!"Brezhoneg",
    t!"босански", t!"Català", t!"", t!"čeština", t!"Cymraeg", t!"dansk", t!"Deutsch", t!"", t!"Ελληνικά", t!"English", t!"",
    t!"British English", t!"Esperanto", t!"Español", t!"Español de Argentina", t!"", t!"Español de México",
    t!"Español de Nicaragua", t!"Español de Venezuela", t!"Eesti", t!"Euskara", t!"فارسی", t!"Suomi", t!"Français",
    t!"Frysk", t!"Gaeilge", t!"", t!"Galego", t!"עברית", t!"हिन्दी", t!"hrvatski", t!"", t!"Magyar", t!"", t!"Interlingua",
    t!"", t!"Bahasa Indonesia", t!"", t!"Íslenska", t!"Italiano", t!"日本語", t!"ქართული", t!"", t!"Қазақша", t!"Khmer",
    t!"Kannaḍa", t!"한국어", t!"", t!"Lëtzebuergesch", t!"Lietuvių", t!"Latviešu", t!"Македонски", t!"മലയാളം", t!"Монгол", t!"",
    t!"", t!"Burmese", t!"", t!"नेपाली", t!"Nederlands", t!"Norsk nynorsk", t!"", t!"Ossetic", t!"ਪੰਜਾਬੀ", t!"Polski",
    t!"Português", t!"Português do Brasil", t!"Română", t!"Русский", t!"Slovenčina", t!"Slovenščina", t!"Shqip",
    t!"Српски / srpski", t!"Serbian Latin", t!"Svenska", t!"Kiswahili", t!"தமிழ்", t!"Telugu", t!"", t!"ไทย", t!"",
    t!"Türkçe", t!"Tatar", t!"Удмурт", t!"", t!"Українська", t!"اُردُو", t!"", t!"Tiếng Việt", t!"简体中文", t!"繁體中文"]

/-- /repo/humanize/locale/is/django.po. -/
def names_is : Names where
  locale := loc_is
  names := [
    t!"Afríkanska", t!"Arabíska", t!"", t!"Astúríska", t!"Aserbaídsjíska", t!"Hvítrússneska", t!"Búlgarska", t!"Bengalska",
    t!"Bretónska", t!"Bosníska", t!"Katalónska", t!"", t!"Tékkneska", t!"Velska", t!"Danska", t!"Þýska", t!"Neðri sorbíska",
    t!"Gríska", t!"Enska", t!"Áströlsk enska", t!"Bresk enska", t!"Esperanto", t!"Spænska", t!"Argentínsk spænska",
    t!"Kólumbísk spænska", t!"Mexíkósk spænska", t!"Níkaragva spænska", t!"Venesúelsk spænska", t!"Eistneska", t!"Baskneska",
    t!"Persneska", t!"Finnska", t!"Franska", t!"Frísneska", t!"Írska", t!"Skosk gelíska", t!"Galíska", t!"Hebreska",
    t!"Hindí", t!"Króatíska", t!"Efri sorbíska", t!"Ungverska", t!"Armenska", t!"Interlingua", t!"Ido", t!"Indónesíska",
    t!"", t!"Íslenska", t!"Ítalska", t!"Japanska", t!"Georgíska", t!"", t!"Kasakska", t!"Kmeríska", t!"Kannadanska",
    t!"Kóreska", t!"", t!"Lúxemborgíska", t!"Litháenska", t!"Lettneska", t!"Makedónska", t!"Malajalamska", t!"Mongólska",
    t!"Maratí", t!"", t!"Búrmíska", t!"", t!"Nepalska", t!"Hollenska", t!"Nýnorska", t!"", t!"Ossetíska", t!"Púndjabíska",
    t!"Pólska", t!"Portúgalska", t!"Brasilísk portúgalska", t!"Rúmenska", t!"Rússneska", t!"Slóvakíska", t!"Slóvenska",
    t!"Albanska", t!"Serbneska", t!"Serbnesk latína", t!"Sænska", t!"Svahílí", t!"Tamílska", t!"Telúgúska", t!"",
    t!"Tælenska", t!"", t!"Tyrkneska", t!"Tataríska", t!"Údmúrt", t!"", t!"Úkraínska", t!"Úrdú", t!"", t!"Víetnamska",
    t!"Einfölduð kínverska ", t!"Hefðbundin kínverska"]

/-- /repo/humanize/locale/it/django.po. -/
def names_it : Names where
  locale := loc_it
  names := [
    t!"Afrikaans", t!"Arabo", t!"Arabo Algerino", t!"Asturiano", t!"Azero", t!"Bielorusso", t!"Bulgaro", t!"Bengalese",
    t!"Bretone", t!"Bosniaco", t!"Catalano", t!"Curdo centrale (Sorani)", t!"Ceco", t!"Gallese", t!"Danese", t!"Tedesco",
    t!"Sorabo inferiore", t!"Greco", t!"Inglese", t!"Inglese Australiano", t!"Inglese britannico", t!"Esperanto",
    t!"Spagnolo", t!"Spagnolo Argentino", t!"Spagnolo Colombiano", t!"Spagnolo Messicano", t!"Spagnolo Nicaraguense",
    t!"Spagnolo venezuelano", t!"Estone", t!"Basco", t!"Persiano", t!"Finlandese", t!"Francese", t!"Frisone", t!"Irlandese",
    t!"Gaelico Scozzese", t!"Galiziano", t!"Ebraico", t!"Hindi", t!"Croato", t!"Sorabo superiore", t!"Ungherese", t!"Armeno",
    t!"Interlingua", t!"Ido", t!"Indonesiano", t!"Igbo", t!"Islandese", t!"Italiano", t!"Giapponese", t!"Georgiano",
    t!"Cabilo", t!"Kazako", t!"Khmer", t!"Kannada", t!"Coreano", t!"Kirghiso", t!"Lussemburghese", t!"Lituano", t!"Lettone",
    t!"Macedone", t!"Malayalam", t!"Mongolo", t!"Marathi", t!"Malese", t!"Birmano", t!"", t!"Nepali", t!"Olandese",
    t!"Norvegese Nynorsk", t!"", t!"Ossetico", t!"Punjabi", t!"Polacco", t!"Portoghese", t!"Brasiliano Portoghese",
    t!"Rumeno", t!"Russo", t!"Slovacco", t!"Sloveno", t!"Albanese", t!"Serbo", t!"Serbo Latino", t!"Svedese", t!"Swahili",
    t!"Tamil", t!"Telugu", t!"Tajik", t!"Tailandese", t!"Turkmeno", t!"Turco", t!"Tatar", t!"Udmurt", t!"Uiguro",
    t!"Ucraino", t!"Urdu", t!"Uzbeko", t!"Vietnamita", t!"Cinese semplificato", t!"Cinese tradizionale"]

/-- /repo/humanize/locale/ja/django.po. -/
def names_ja : Names where
  locale := loc_ja
  names := [
    t!"アフリカーンス語", t!"アラビア語", t!"アラビア語(アルジェリア)", t!"アストゥリアス語", t!"アゼルバイジャン語", t!"ベラルーシ語", t!"ブルガリア語", t!"ベンガル語", t!"ブルトン語",
    t!"ボスニア語", t!"カタロニア語", t!"中央クルド語 (ソラニー語)", t!"チェコ語", t!"ウェールズ語", t!"デンマーク語", t!"ドイツ語", t!"低地ソルブ語", t!"ギリシャ語", t!"英語(米国)",
    t!"英語(オーストラリア)", t!"英語(英国)", t!"エスペラント語", t!"スペイン語", t!"アルゼンチンスペイン語", t!"コロンビアスペイン語", t!"メキシコスペイン語", t!"ニカラグアスペイン語",
    t!"ベネズエラスペイン語", t!"エストニア語", t!"バスク語", t!"ペルシア語", t!"フィンランド語", t!"フランス語", t!"フリジア語", t!"アイルランド語", t!"ゲール語(スコットランド)",
    t!"ガリシア語", t!"ヘブライ語", t!"ヒンディー語", t!"クロアチア語", t!"高地ソルブ語", t!"ハンガリー語", t!"アルメニア", t!"インターリングア", t!"イド語", t!"インドネシア語",
    t!"イグボ語", t!"アイスランド語", t!"イタリア語", t!"日本語", t!"グルジア語", t!"カビル語", t!"カザフ語", t!"クメール語", t!"カンナダ語", t!"韓国語", t!"キルギス語",
    t!"ルクセンブルグ語", t!"リトアニア語", t!"ラトビア語", t!"マケドニア語", t!"マラヤーラム語", t!"モンゴル語", t!"マラーティー語", t!"マレー語", t!"ビルマ語", t!"",
    t!"ネパール語", t!"オランダ語", t!"ノルウェーのニーノシュク", t!"", t!"オセット語", t!"パンジャブ語", t!"ポーランド語", t!"ポルトガル語", t!"ブラジルポルトガル語", t!"ルーマニア語",
    t!"ロシア語", t!"スロバキア語", t!"スロヴェニア語", t!"アルバニア語", t!"セルビア語", t!"セルビア語ラテン文字", t!"スウェーデン語", t!"スワヒリ語", t!"タミル語", t!"テルグ語",
    t!"タジク語", t!"タイ語", t!"トルクメン語", t!"トルコ語", t!"タタール語", t!"ウドムルト語", t!"ウイグル語", t!"ウクライナ語", t!"ウルドゥー語", t!"ウズベク語", t!"ベトナム語",
    t!"簡体字中国語", t!"繁体字中国語"]

/-- /repo/humanize/locale/ka/django.po. -/
def names_ka : Names where
  locale := loc_ka
  names := [
    t!"აფრიკაანსი", t!"არაბული", t!"", t!"ასტურიული", t!"აზერბაიჯანული", t!"ბელარუსული", t!"ბულგარული", t!"ბენგალიური",
    t!"ბრეტონული", t!"ბოსნიური", t!"კატალანური", t!"", t!"ჩეხური", t!"უელსური", t!"დანიური", t!"გერმანული",
    t!"ქვემო სორბული", t!"ბერძნული", t!"ინგლისური", t!"ავსტრალიური ინგლისური", t!"ბრიტანეთის ინგლისური", t!"ესპერანტო",
    t!"ესპანური", t!"არგენტინის ესპანური", t!"კოლუმბიური ესპანური", t!"მექსიკური ესპანური", t!"ნიკარაგუული ესპანური",
    t!"ვენესუელის ესპანური", t!"ესტონური", t!"ბასკური", t!"სპარსული", t!"ფინური", t!"ფრანგული", t!"ფრისიული", t!"ირლანდიური",
    t!"შოტლანდიური-გელური", t!"გალიციური", t!"ებრაული", t!"ჰინდი", t!"ხორვატიული", t!"ზემო სორბიული", t!"უნგრული",
    t!"სომხური", t!"ინტერლინგუა", t!"იდო", t!"ინდონეზიური", t!"", t!"ისლანდიური", t!"იტალიური", t!"იაპონური", t!"ქართული",
    t!"კაბილური", t!"ყაზახური", t!"ხმერული", t!"კანნადა", t!"კორეული", t!"", t!"ლუქსემბურგული", t!"ლიტვური", t!"ლატვიური",
    t!"მაკედონიური", t!"მალაიზიური", t!"მონღოლური", t!"მარათული", t!"", t!"ბირმული", t!"", t!"ნეპალური", t!"ჰოლანდიური",
    t!"ნორვეგიული-ნინორსკი", t!"", t!"ოსური", t!"პუნჯაბი", t!"პოლონური", t!"პორტუგალიური", t!"ბრაზილიური პორტუგალიური",
    t!"რუმინული", t!"რუსული", t!"სლოვაკური", t!"სლოვენიური", t!"ალბანური", t!"სერბული", t!"სერბული (ლათინური)", t!"შვედური",
    t!"სუაჰილი", t!"თამილური", t!"ტელუგუ", t!"", t!"ტაი", t!"", t!"თურქული", t!"თათრული", t!"უდმურტული", t!"", t!"უკრაინული",
    t!"ურდუ", t!"", t!"ვიეტნამური", t!"გამარტივებული ჩინური", t!"ტრადიციული ჩინური"]

/-- /repo/humanize/locale/kab/django.po. -/
def names_kab : Names where
  locale := loc_kab
  names := [
    t!"Tafrikanst", t!"Taɛṛabt", t!"", t!"Tasturyant", t!"Tazeṛbayǧant", t!"Tabilurusit", t!"Tabulgarit", t!"Tabelgalit",
    t!"Tabrutunt", t!"Tabusnit", t!"Takaṭalant", t!"", t!"Tačikit", t!"Takusit", t!"Tadanit", t!"Talmanit",
    t!"Tasiṛbit n wadda", t!"Tagrigit", t!"Taglizit", t!"Taglizit n Ustralya", t!"Taglizit (UK)", t!"Taspirantit",
    t!"Taspanit", t!"Taspanit n Arjuntin", t!"Taspanit n Kulumbya", t!"Taspanit n Miksik", t!"Taspanit n Nikaragwa",
    t!"Taspanit n Vinizwila", t!"Tastunit", t!"Tabaskit", t!"Tafarsit", t!"Tafinit", t!"Tafṛansist", t!"", t!"", t!"", t!"",
    t!"", t!"Tahendit", t!"Takarwasit", t!"", t!"Tahungarit", t!"", t!"", t!"", t!"Tandunizit", t!"", t!"Taslandit",
    t!"Taṭelyanit", t!"", t!"Tajyuṛjit", t!"", t!"Takazaxt", t!"", t!"Takannadat", t!"Takurit", t!"", t!"", t!"Talitwanit",
    t!"Talitunit", t!"Tamasidunit", t!"Tamayalamt", t!"", t!"", t!"", t!"Tabirmanit", t!"", t!"Tanipalit", t!"Tahulandit",
    t!"", t!"", t!"", t!"Tabenjabit", t!"Tapulandit", t!"Tapurtugit", t!"", t!"Tarumanit", t!"Tarusit", t!"Tasluvakt", t!"",
    t!"Talbanit", t!"Tasiṛbit", t!"", t!"Taswidit", t!"Taswahilit", t!"Taṭamult", t!"", t!"", t!"", t!"", t!"Taṭurkit", t!"",
    t!"", t!"", t!"", t!"", t!"", t!"", t!"", t!""]

/-- /repo/humanize/locale/kk/django.po. -/
def names_kk : Names where
  locale := loc_kk
  names := [
    t!"", t!"Араб", t!"", t!"", t!"Әзірбайжан", t!"", t!"Болгар", t!"Бенгал", t!"", t!"Босния", t!"Каталан", t!"", t!"Чех",
    t!"Валлий", t!"Дания", t!"Неміс", t!"", t!"Грек", t!"Ағылшын", t!"", t!"Британдық ағылшын", t!"", t!"Испан",
    t!"Аргентиналық испан", t!"", t!"Мексикалық испан", t!"Никарагуа испан", t!"", t!"Эстон", t!"Баск", t!"Парсы", t!"Фин",
    t!"Француз", t!"Фриз", t!"Ирландия", t!"", t!"Галиц", t!"Иврит", t!"Хинди", t!"Кроат", t!"", t!"Венгрия", t!"", t!"",
    t!"", t!"Индонезия", t!"", t!"Исладия", t!"Итальян", t!"Жапон", t!"Грузин", t!"", t!"Қазақша", t!"Кхмер", t!"Канада",
    t!"Корей", t!"", t!"", t!"Литва", t!"Латвия", t!"Македон", t!"Малаялам", t!"Монғол", t!"", t!"", t!"", t!"", t!"",
    t!"Голланд", t!"Норвегиялық нюнор", t!"", t!"", t!"Пенджаб", t!"Поляк", t!"Португал", t!"Бразилиялық португал",
    t!"Роман", t!"Орыс", t!"Словак", t!"Словениялық", t!"Албан", t!"Серб", t!"Сербиялық латын", t!"Швед", t!"", t!"Тамиль",
    t!"Телугу", t!"", t!"Тай", t!"", t!"Түрік", t!"", t!"", t!"", t!"Украин", t!"Урду", t!"", t!"Вьетнам",
    t!"Жеңілдетілген қытай", t!"Дәстүрлі қытай"]

/-- /repo/humanize/locale/km/django.po. -/
def names_km : Names where
  locale := loc_km
  names := [
    t!"", t!"ភាសាអារ៉ាប់", t!"", t!"", t!"", t!"", t!"", t!"ភាសាបេឡារុស្ស", t!"", t!"", t!"", t!"", t!"ភាសាឆេក",
    t!"ភាសាអ៊ុយក្រែន", t!"ភាសាដាណឺម៉ាក", t!"ភាសាអាល្លឺម៉ង់", t!"", t!"ភាសាហ្កែលិគ", t!"ភាសាអង់គ្លេស", t!"", t!"", t!"",
    t!"ភាសាអេស្ប៉ាញ", t!"", t!"", t!"", t!"", t!"", t!"", t!"", t!"", t!"ភាសាហ្វាំងឡង់", t!"ភាសាបារាំង", t!"", t!"", t!"",
    t!"ភាសាហ្កែលិគ", t!"ភាសាហេប្រិ", t!"", t!"", t!"", t!"ភាសាហុងគ្រី", t!"", t!"", t!"", t!"", t!"", t!"ភាសាអ៉ីស្លង់",
    t!"ភាសាអ៊ីតាលី", t!"ភាសាជប៉ុន", t!"", t!"", t!"", t!"", t!"", t!"", t!"", t!"", t!"", t!"", t!"", t!"", t!"", t!"", t!"",
    t!"", t!"", t!"", t!"ភាសាហ្វាំងឡង់", t!"", t!"", t!"", t!"", t!"", t!"", t!"", t!"ភាសារូម៉ានី", t!"ភាសាรัរូស្ស៉ី",
    t!"ភាសាស្លូវ៉ាគី", t!"ភាសាស្លូវ៉ានី", t!"", t!"", t!"", t!"ភាសាស៊ុយអែដ", t!"", t!"ភាសាតាមីល", t!"", t!"", t!"", t!"",
    t!"ភាសាទួរគី", t!"", t!"", t!"", t!"ភាសាអ៊ុយក្រែន", t!"", t!"", t!"", t!"ភាសាចិនសាមញ្ញ", t!"ភាសាចិនបុរាណ"]

/-- /repo/humanize/locale/kn/django.po. -/
def names_kn : Names where
  locale := loc_kn
  names := [
    t!"", t!"ಅರೇಬಿಕ್", t!"", t!"", t!"ಆಜೆರ್ಬೈಜನಿ", t!"", t!"ಬಲ್ಗೇರಿಯನ್", t!"ಬೆಂಗಾಲಿ", t!"", t!"ಬೋಸ್ನಿಯನ್", t!"ಕೆಟಲಾನ್", t!"",
    t!"ಝೆಕ್", t!"ವೆಲ್ಷ್", t!"ಡ್ಯಾನಿಷ್", t!"ಜರ್ಮನ್", t!"", t!"ಗ್ರೀಕ್", t!"ಇಂಗ್ಲಿಷ್", t!"", t!"ಬ್ರಿಟೀಶ್ ಇಂಗ್ಲಿಷ್", t!"",
    t!"ಸ್ಪ್ಯಾನಿಷ್", t!"ಅರ್ಜೆಂಟಿನಿಯನ್ ಸ್ಪಾನಿಷ್", t!"", t!"ಮೆಕ್ಸಿಕನ್ ಸ್ಪಾನಿಷ್", t!"nicarguan ಸ್ಪಾನಿಷ್", t!"", t!"ಎಷ್ಟೋನಿಯನ್",
    t!"ಬಾಸ್ಕ್‍", t!"ಪರ್ಶಿಯನ್", t!"ಫಿನ್ನಿಶ್", t!"ಫ್ರೆಂಚ್", t!"ಫ್ರಿಸಿಯನ್", t!"ಐರಿಶ್", t!"", t!"ಗೆಲಿಶಿಯನ್", t!"ಹೀಬ್ರೂ",
    t!"ಹಿಂದಿ", t!"ಕ್ರೊಯೇಶಿಯನ್", t!"", t!"ಹಂಗೇರಿಯನ್", t!"", t!"", t!"", t!"ಇಂಡೋನಿಶಿಯನ್", t!"", t!"ಐಸ್‌ಲ್ಯಾಂಡಿಕ್",
    t!"ಇಟಾಲಿಯನ್", t!"ಜಾಪನೀಸ್", t!"ಜಾರ್ಜೆಯನ್ ", t!"", t!"", t!"ಖಮೇರ್", t!"ಕನ್ನಡ", t!"ಕೊರಿಯನ್", t!"", t!"", t!"ಲಿತುವಾನಿಯನ್ ",
    t!"ಲಾಟ್ವಿಯನ್", t!"ಮೆಸಡೊನಿಯನ್", t!"ಮಲಯಾಳಂ", t!"ಮಂಗೊಲಿಯನ್", t!"", t!"", t!"", t!"", t!"", t!"ಡಚ್",
    t!"ನಾರ್ವೇಜಿಯನ್ ನಿನೋರ್ಕ್", t!"", t!"", t!"ಪಂಜಾಬಿ", t!"ಪೋಲಿಷ್", t!"ಪೋರ್ಚುಗೀಸ್", t!"ಬ್ರಜೀಲಿಯನ್ ಪೋರ್ಚುಗೀಸ್", t!"ರೋಮೇನಿಯನ್",
    t!"ರಶಿಯನ್", t!"ಸ್ಲೋವಾಕ್", t!"ಸ್ಲೋವೇನಿಯನ್", t!"ಅಲ್ಬೆನಿಯನ್ ", t!"ಸರ್ಬಿಯನ್", t!"ಸರ್ಬಿಯನ್ ಲ್ಯಾಟಿನ್", t!"ಸ್ವೀಡಿಷ್", t!"",
    t!"ತಮಿಳು", t!"ತೆಲುಗು", t!"", t!"ಥಾಯ್", t!"", t!"ಟರ್ಕಿಶ್", t!"", t!"", t!"", t!"ಉಕ್ರೇನಿಯನ್", t!"ಉರ್ದು", t!"",
    t!"ವಿಯೆತ್ನಾಮೀಸ್", t!"ಸರಳೀಕೃತ ಚೈನೀಸ್", t!"ಸಂಪ್ರದಾಯಿಕ ಚೈನೀಸ್ "]

/-- /repo/humanize/locale/ko/django.po. -/
def names_ko : Names where
  locale := loc_ko
  names := [
    t!"아프리칸스어", t!"아랍어", t!"알제리 아랍어", t!"호주어", t!"아제르바이잔어", t!"벨라루스어", t!"불가리어", t!"방글라데시어", t!"브르타뉴어", t!"보스니아어",
    t!"카탈로니아어", t!"중부 쿠르드어 (소라니어)", t!"체코어", t!"웨일즈어", t!"덴마크어", t!"독일어", t!"저지 소르브어", t!"그리스어", t!"영어", t!"영어(호주)",
    t!"영어 (영국)", t!"에스페란토어", t!"스페인어", t!"아르헨티나 스페인어", t!"콜롬비아 스페인어", t!"멕시컨 스페인어", t!"니카과라 스페인어", t!"베네수엘라 스페인어",
    t!"에스토니아어", t!"바스크어", t!"페르시아어", t!"핀란드어", t!"프랑스어", t!"프리슬란트어", t!"아일랜드어", t!"스코틀랜드 게일어", t!"갈리시아어", t!"히브리어", t!"힌두어",
    t!"크로아티아어", t!"고지 소르브어", t!"헝가리어", t!"아르메니아어", t!"인테르링구아어", t!"이도어", t!"인도네시아어", t!"이그보어", t!"아이슬란드어", t!"이탈리아어",
    t!"일본어", t!"조지아어", t!"커바일어", t!"카자흐어", t!"크메르어", t!"칸나다어", t!"한국어", t!"키르키즈 공화국어", t!"룩셈부르크", t!"리투아니아어", t!"라트비아어",
    t!"마케도니아어", t!"말라얄람어", t!"몽고어", t!"마라티어", t!"말레이시아어", t!"미얀마어", t!"", t!"네팔어", t!"네덜란드어", t!"노르웨이어 (뉘노르스크)", t!"",
    t!"오세티아어", t!"펀자브어", t!"폴란드어", t!"포르투갈어", t!"브라질 포르투갈어", t!"루마니아어", t!"러시아어", t!"슬로바키아어", t!"슬로베니아어", t!"알바니아어",
    t!"세르비아어", t!"세르비아어", t!"스웨덴어", t!"스와힐리어", t!"타밀어", t!"텔루구어", t!"타지크어", t!"태국어", t!"튀르크멘어", t!"터키어", t!"타타르", t!"이제프스크",
    t!"위구르", t!"우크라이나어", t!"우르드어", t!"우즈베크어", t!"베트남어", t!"중국어 간체", t!"중국어 번체"]

/-- /repo/humanize/locale/ky/django.po. -/
def names_ky : Names where
  locale := loc_ky
  names := [
    t!"Африканча", t!"Арабча", t!"Алжир арабчасы", t!"Австрийче", t!"Азерче", t!"Белорусча", t!"Болгарча", t!"Бенгалча",
    t!"Бретончо", t!"Босния", t!"Каталан", t!"", t!"Чехче", t!"Валлий", t!"Данчийче", t!"Немисче", t!"Сорб", t!"Грекче",
    t!"Англисче", t!"Авс. Англисчеси", t!"Бр. Англ.", t!"Есперанто", t!"Испанча", t!"Арг. исп", t!"Колумб Испанчасы",
    t!"Мекс. исп", t!"Никарагуа испанчасы", t!"Венесуела Испанчасы", t!"Эстон", t!"Баск", t!"Персче", t!"Финче",
    t!"Французча", t!"Фризче", t!"Ирланча", t!"Шотланча", t!"Галицианча", t!"Жөөтчө", t!"Хиндче", t!"Хорватча",
    t!"Жогорку Сорбчо", t!"Венгрче", t!"Арменче", t!"Эл аралык", t!"идо", t!"Индонезче", t!"Игбо", t!"Исландча",
    t!"Итальянча", t!"Жапончо", t!"Грузинче", t!"Кабилче", t!"Казакча", t!"Кхмер", t!"Канадча", t!"Корейче", t!"Кыргызча",
    t!"Люкцембургча", t!"Литвача", t!"Латвияча", t!"Македончо", t!"Малаяламча", t!"Монголчо", t!"Марати", t!"Малай",
    t!"Бурмача", t!"", t!"Непалча", t!"Голландча", t!"Норвегиялык нюнор", t!"", t!"Оссетче", t!"Пенжабча", t!"Полякча",
    t!"Португалча", t!"Бразилиялык португалчасы", t!"Румынча", t!"Орусча", t!"Словакча", t!"Словенияча", t!"Албанча",
    t!"Сербче", t!"Серб латынчасы", t!"Шведче", t!"Свахилче", t!"Тамиль", t!"Телугу", t!"Тажикче", t!"Тайча", t!"Түркмөнчө",
    t!"Түркчө", t!"Татарча", t!"Удмурча", t!"", t!"Украинче", t!"Урду", t!"Өзбекче", t!"Вьетнамча",
    t!"Жеңилдетилген кытайча", t!"салттык кытайча"]

/-- /repo/humanize/locale/lb/django.po. -/
def names_lb : Names where
  locale := loc_lb
  names := [
    t!"Afrikaans", t!"Arabesch", t!"", t!"", t!"", t!"Wäissrussesch", t!"Bulgaresch", t!"Bengalesch", t!"", t!"Bosnesch",
    t!"Katalanesch", t!"", t!"Tschechesch", t!"Walisesch", t!"Dänesch", t!"Däitsch", t!"", t!"Griichesch", t!"Englesch",
    t!"", t!"Britesch Englesch", t!"", t!"Spuenesch", t!"Argentinesch Spuenesch", t!"", t!"Mexikanesch Spuenesch", t!"",
    t!"", t!"Estonesch", t!"Baskesch", t!"Persesch", t!"Finnesch", t!"Franséisch", t!"Frisesch", t!"Iresch", t!"",
    t!"Galesch", t!"Hebräesch", t!"Hindi", t!"Kroatesch", t!"", t!"Ungaresch", t!"", t!"", t!"", t!"Indonesesch", t!"",
    t!"Islännesch", t!"Italienesch", t!"Japanesch", t!"Georgesch", t!"", t!"", t!"Khmer", t!"Kanadesch", t!"Koreanesch",
    t!"", t!"Lëtzebuergesch", t!"Lithuanesesch", t!"Lättesch", t!"Macedonesch", t!"Malayalam", t!"Mongolesch", t!"", t!"",
    t!"", t!"", t!"", t!"Hollännesch", t!"Norwegesch Nynorsk", t!"", t!"", t!"Punjabi", t!"Polnesch", t!"Portugisesch",
    t!"Brasilianesch Portugisesch", t!"Rumänesch", t!"Russesch", t!"Slowakesch", t!"Slowenesch", t!"Albanesch", t!"Serbesch",
    t!"Serbesch Latäinesch", t!"Schwedesch", t!"", t!"Tamil", t!"Telugu", t!"", t!"Thai", t!"", t!"Tierkesch", t!"", t!"",
    t!"", t!"Ukrainesch", t!"", t!"", t!"Vietnamesesch", t!"Einfach d'Chinesesch", t!"Traditionell d'Chinesesch"]

/-- /repo/humanize/locale/lt/django.po. -/
def names_lt : Names where
  locale := loc_lt
  names := [
    t!"Afrikiečių", t!"Arabų", t!"", t!"Austrų", t!"Azerbaidžaniečių", t!"Gudų", t!"Bulgarų", t!"Bengalų", t!"Bretonų",
    t!"Bosnių", t!"Katalonų", t!"", t!"Čekų", t!"Velso", t!"Danų", t!"Vokiečių", t!"Žemutinė Sorbų", t!"Graikų", t!"Anglų",
    t!"Australų Anlgų", t!"Britų Anglų", t!"Esperanto", t!"Ispanų", t!"Argentiniečių Ispanų", t!"Kolumbų Ispanų",
    t!"Meksikiečių Ispanų", t!"Nikaragvos Ispanijos", t!"Venesuelos Ispanų", t!"Estų", t!"Baskų", t!"Persų", t!"Suomių",
    t!"Prancūzų", t!"Fryzų", t!"Airių", t!"Škotų Gėlų", t!"Galų", t!"Hebrajų", t!"Hindi", t!"Kroatų", t!"Aukštutinė Sorbų",
    t!"Vengrų", t!"Armėnų", t!"Interlingua", t!"Ido", t!"Indoneziečių", t!"", t!"Islandų", t!"Italų", t!"Japonų",
    t!"Gruzinų", t!"Kabilų", t!"Kazachų", t!"Khmerų", t!"Dravidų", t!"Korėjiečių", t!"", t!"Liuksemburgų", t!"Lietuvių",
    t!"Latvių", t!"Makedonų", t!"Malajalių", t!"Mongolų", t!"Marati", t!"", t!"Mjanmų", t!"", t!"Nepalų", t!"Olandų",
    t!"Norvegų Nynorsk", t!"", t!"Osetinų", t!"Pandžabi", t!"Lenkų", t!"Protugalų", t!"Brazilijos Portugalų", t!"Rumunų",
    t!"Rusų", t!"Slovakų", t!"Slovėnų", t!"Albanų", t!"Serbų", t!"Serbų Lotynų", t!"Švedų", t!"Svahili", t!"Tamilų",
    t!"Telugų", t!"", t!"Tailando", t!"", t!"Turkų", t!"Totorių", t!"Udmurtų", t!"", t!"Ukrainiečių", t!"Urdu", t!"",
    t!"Vietnamiečių", t!"Supaprastinta kinų", t!"Tradicinė kinų"]

/-- /repo/humanize/locale/lv/django.po. -/
def names_lv : Names where
  locale := loc_lv
  names := [
    t!"afrikāņu", t!"arābu", t!"Alžīrijas arābu", t!"asturiešu", t!"azerbaidžāņu", t!"baltkrievu", t!"bulgāru", t!"bengāļu",
    t!"bretoņu", t!"bosniešu", t!"katalāņu", t!"centrālā kurdu (sorani)", t!"čehu", t!"velsiešu", t!"dāņu", t!"vācu",
    t!"apakšsorbu", t!"grieķu", t!"angļu", t!"Austrālijas angļu", t!"Lielbritānijas angļu", t!"esperanto", t!"spāņu",
    t!"Argentīnas spāņu", t!"Kolumbijas spāņu", t!"Meksikas spāņu", t!"Nikaragvas spāņu", t!"Venecuēlas spāņu", t!"igauņu",
    t!"basku", t!"persiešu", t!"somu", t!"franču", t!"frīzu", t!"īru", t!"skotu gēlu", t!"galīciešu", t!"ebreju", t!"hindu",
    t!"horvātu", t!"augšsorbu", t!"ungāru", t!"armēņu", t!"modernā latīņu", t!"ido", t!"indonēziešu", t!"igbo",
    t!"islandiešu", t!"itāļu", t!"japāņu", t!"gruzīnu", t!"kabiliešu", t!"kazahu", t!"khmeru", t!"kannādiešu", t!"korejiešu",
    t!"kirgīzu", t!"luksemburgiešu", t!"lietuviešu", t!"latviešu", t!"maķedoniešu", t!"malajalu", t!"mongoļu", t!"maratiešu",
    t!"malajiešu", t!"birmiešu", t!"", t!"nepāliešu", t!"holandiešu", t!"norvēģu nynorsk", t!"", t!"osetiešu", t!"pandžabu",
    t!"poļu", t!"portugāļu", t!"Brazīlijas portugāļu", t!"rumāņu", t!"krievu", t!"slovāku", t!"slovēņu", t!"albāņu",
    t!"serbu", t!"serbu latīņu", t!"zviedru", t!"svahili", t!"tamilu", t!"telugu", t!"tadžiku", t!"taizemiešu", t!"turkmēņu",
    t!"turku", t!"tatāru", t!"udmurtu", t!"uiguru", t!"ukraiņu", t!"urdu", t!"uzbeku", t!"vjetnamiešu",
    t!"vienkāršā ķīniešu", t!"tradicionālā ķīniešu"]

/-- /repo/humanize/locale/mk/django.po. -/
def names_mk : Names where
  locale := loc_mk
  names := [
    t!"Африканс", t!"Арапски", t!"", t!"Астуриски", t!"Азербејџански", t!"Белоруски", t!"Бугарски", t!"Бенгалски",
    t!"Бретонски", t!"Босански", t!"Каталански", t!"", t!"Чешки", t!"Велшки", t!"Дански", t!"Германски",
    t!"Долно Лужичко-Српски", t!"Грчки", t!"Англиски", t!"Австралиски англиски", t!"Британски англиски", t!"Есперанто",
    t!"Шпански", t!"Аргентински шпански", t!"Колумбиски Шпански", t!"Мексикански шпански", t!"Никарагва шпански",
    t!"Венецуела шпански", t!"Естонски", t!"Баскиски", t!"Персиски", t!"Фински", t!"Француски", t!"Фризиски", t!"Ирски",
    t!"Шкотски Галски", t!"Галски", t!"Еврејски", t!"Хинди", t!"Хрватски", t!"Горно Лужичко-Српски", t!"Унгарски",
    t!"Ерменски", t!"Интерлингва", t!"Идо", t!"Индонезиски", t!"", t!"Исландски", t!"Италијански", t!"Јапонски",
    t!"Грузиски", t!"", t!"Казахстански", t!"Кмер", t!"Канада", t!"Корејски", t!"", t!"Луксембуршки", t!"Литвански",
    t!"Латвиски", t!"Македонски", t!"Малајалам", t!"Монголски", t!"Марати", t!"", t!"Бурмански", t!"", t!"Непалски",
    t!"Холандски", t!"Нинорск норвешки", t!"", t!"Осетски", t!"Пунџаби", t!"Полски", t!"Португалкски",
    t!"Бразилско португалски", t!"Романски", t!"Руски", t!"Словачки", t!"Словенечки", t!"Албански", t!"Српски",
    t!"Српски Латиница", t!"Шведски", t!"Свахили", t!"Тамил", t!"Телугу", t!"", t!"Тајландски", t!"", t!"Турски",
    t!"Татарски", t!"Удмурт", t!"", t!"Украински", t!"Урду", t!"", t!"Виетнамски", t!"Поедноставен кинески",
    t!"Традиционален кинески"]

/-- /repo/humanize/locale/ml/django.po. -/
def names_ml : Names where
  locale := loc_ml
  names := [
    t!"ആഫ്രിക്കാന്‍സ്", t!"അറബിൿ", t!"അൾഗേരിയൻ അറബിൿ", t!"ആസ്ടൂറിയൻ", t!"അസര്‍ബൈജാനി", t!"ബെലറൂഷ്യന്‍", t!"ബള്‍ഗേറിയന്‍",
    t!"ബംഗാളി", t!"ബ്രെട്ടണ്‍", t!"ബോസ്നിയന്‍", t!"കാറ്റലന്‍", t!"", t!"ചെൿ", t!"വെല്‍ഷ്", t!"ഡാനിഷ്", t!"ജര്‍മന്‍",
    t!"ലോവർ സോർബിയൻ ", t!"ഗ്രീക്ക്", t!"ഇംഗ്ലീഷ്", t!"ആസ്ട്രേലിയൻ ഇംഗ്ലീഷ്", t!"ബ്രിട്ടീഷ് ഇംഗ്ലീഷ്", t!"എസ്പെരാന്റോ",
    t!"സ്പാനിഷ്", t!"അര്‍ജന്റീനിയന്‍ സ്പാനിഷ്", t!"കൊളംബിയൻ സ്പാനിഷ്", t!"മെക്സിക്കന്‍ സ്പാനിഷ്", t!"നിക്കരാഗ്വന്‍ സ്പാനിഷ്",
    t!"വെനിസ്വലന്‍ സ്പാനിഷ്", t!"എസ്ടോണിയന്‍ സ്പാനിഷ്", t!"ബാസ്ക്യു", t!"പേര്‍ഷ്യന്‍", t!"ഫിന്നിഷ്", t!"ഫ്രെഞ്ച്",
    t!"ഫ്രിസിയന്‍", t!"ഐറിഷ്", t!"സ്കോട്ടിഷ് ഗൈലിൿ", t!"ഗലിഷ്യന്‍", t!"ഹീബ്രു", t!"ഹിന്ദി", t!"ക്രൊയേഷ്യന്‍",
    t!"അപ്പർ സോർബിയൻ ", t!"ഹംഗേറിയന്‍", t!"അർമേനിയൻ", t!"ഇന്റര്‍ലിംഗ്വാ", t!"ഈടോ", t!"ഇന്തൊനേഷ്യന്‍", t!"", t!"ഐസ്ലാന്‍ഡിൿ",
    t!"ഇറ്റാലിയന്‍", t!"ജാപ്പനീസ്", t!"ജോര്‍ജിയന്‍", t!"കാബയെൽ ", t!"കസാഖ്", t!"ഖ്മേര്‍", t!"കന്നഡ", t!"കൊറിയന്‍", t!"",
    t!"ലക്സംബര്‍ഗിഷ് ", t!"ലിത്വാനിയന്‍", t!"ലാറ്റ്വിയന്‍", t!"മാസിഡോണിയന്‍", t!"മലയാളം", t!"മംഗോളിയന്‍", t!"മറാത്തി", t!"",
    t!"ബര്‍മീസ്", t!"", t!"നേപ്പാളി", t!"ഡച്ച്", t!"നോര്‍വീജിയന്‍ നിനോഷ്ക്", t!"", t!"ഒസ്സെറ്റിക്", t!"പഞ്ചാബി", t!"പോളിഷ്",
    t!"പോര്‍ചുഗീസ്", t!"ബ്രസീലിയന്‍ പോര്‍ച്ചുഗീസ്", t!"റൊമാനിയന്‍", t!"റഷ്യന്‍", t!"സ്ലൊവാൿ", t!"സ്ളൊവേനിയന്‍",
    t!"അല്‍ബേനിയന്‍", t!"സെര്‍ബിയന്‍", t!"സെര്‍ബിയന്‍ ലാറ്റിന്‍", t!"സ്വീഡിഷ്", t!"സ്വാഹിലി", t!"തമിഴ്", t!"തെലുങ്ക്", t!"",
    t!"തായ്", t!"", t!"ടര്‍ക്കിഷ്", t!"തൊതാര്‍", t!"ഉദ്മര്‍ത്", t!"", t!"യുക്രേനിയന്‍", t!"ഉര്‍ദു", t!"ഉസ്ബെൿ",
    t!"വിയറ്റ്നാമീസ്", t!"സിമ്പ്ലിഫൈഡ് ചൈനീസ്", t!"പരമ്പരാഗത ചൈനീസ്"]

/-- /repo/humanize/locale/mn/django.po. -/
def names_mn : Names where
  locale := loc_mn
  names := [
    t!"Африк", t!"Араб", t!"Алжир Араб", t!"Астури", t!"Азербажан", t!"Беларус", t!"Болгар", t!"Бенгал", t!"Бэрэйтон ",
    t!"Босни", t!"Каталан", t!"Төв Курд (Сорани)", t!"Чех", t!"Уэльс", t!"Дани", t!"Герман", t!"Доод Сорбин", t!"Грек",
    t!"Англи", t!"Австрали Англи", t!"Британи Англи", t!"Эсперанто", t!"Испани", t!"Аргентинийн Испани",
    t!"Колумбийн Испаниар", t!"Мексикийн Испани", t!"Никрагуан Испани", t!"Венесуэлийн Спани", t!"Эстони", t!"Баск",
    t!"Перс", t!"Финлянд", t!"Франц", t!"Фриз", t!"Ирланд", t!"Шотландийн Гаелик", t!"Галици", t!"Еврэй", t!"Хинди",
    t!"Хорват", t!"Дээд Сорбин", t!"Унгар", t!"Армен", t!"Interlingua", t!"Идо", t!"Индонези", t!"Игбо", t!"Исланд",
    t!"Итали", t!"Япон", t!"Гүрж", t!"Кабилэ", t!"Казак", t!"Кхмер", t!"Канад", t!"Солонгос", t!"Киргиз", t!"Лүксенбүргиш",
    t!"Литва", t!"Латви", t!"Македон", t!"Малайз", t!"Монгол", t!"маратхи", t!"Малай", t!"Бирм", t!"", t!"Непал",
    t!"Голланд", t!"Норвегийн нюнорск", t!"", t!"Оссетик", t!"Панжаби", t!"Польш", t!"Португал", t!"Бразилийн Португали",
    t!"Румын", t!"Орос", t!"Словак", t!"Словен", t!"Альбани", t!"Серби", t!"Серби латин", t!"Щвед", t!"Савахил", t!"Тамил",
    t!"Тэлүгү", t!"Тажик", t!"Тайланд", t!"Турк хүн", t!"Турк", t!"Татар", t!"Удмурт", t!"Уйгур", t!"Украйн", t!"Урду",
    t!"Узбек", t!"Вьетнам", t!"Хятад (хялбаршуулсан) ", t!"Хятад (уламжлалт)"]

/-- /repo/humanize/locale/mr/django.po. -/
def names_mr : Names where
  locale := loc_mr
  names := [
    t!"अफ्रिकान्स", t!"अरेबिक", t!"अल्जेरियन अरेबिक", t!"अस्टूरियन", t!"अझरबैजानी", t!"बेलारशियन", t!"बल्गेरियन", t!"बंगाली",
    t!"ब्रेटन", t!"बोस्नियन", t!"कॅटलान", t!"मध्य कुर्दिश (सोरानी)", t!"झेक", t!"वेल्श", t!"डॅनिश", t!"जर्मन",
    t!"लोअर सोर्बियन", t!"ग्रीक", t!"इंग्रजी", t!"ऑस्ट्रेलियन इंग्रजी", t!"ब्रिटिश इंग्रजी", t!"एस्पेरॅन्टो", t!"स्पॅनिश ",
    t!"अर्जेन्टिनाची स्पॅनिश", t!"कोलंबियन स्पॅनिश", t!"मेक्सिकन स्पॅनिश", t!"निकारागुआन स्पॅनिश", t!"व्हेनेझुएलन स्पॅनिश",
    t!"एस्टोनियन", t!"बास्क", t!"पर्शियन", t!"फिनिश", t!"फ्रेंच", t!"फ्रिसियन", t!"आयरिश", t!"स्कॉटिश गेलिक", t!"गॅलिशियन",
    t!"हिब्रू", t!"हिंदी", t!"क्रोएशियन", t!"अप्पर सोर्बियन", t!"हंगेरियन", t!"अर्मेनियन", t!"इंटरलिंगुआ", t!"इदो",
    t!"इंडोनेशियन", t!"इग्बो", t!"आयलँडिक", t!"इटालियन", t!"जपानी", t!"जॉर्जियन", t!"कबायल", t!"कझाक", t!"ख्मेर", t!"कन्नड",
    t!"कोरियन", t!"किर्गिझ", t!"लक्झेंबर्गिश", t!"लिथुआनियन", t!"लाटव्हिअन", t!"मॅसेडोनिअन", t!"मल्याळम", t!"मंगोलियन",
    t!"मराठी", t!"मलय", t!"बर्मीस", t!"", t!"नेपाळी", t!"डच", t!"नॉर्वेजिअन निनॉर्स्क ", t!"", t!"ओस्सेटिक", t!"पंजाबी",
    t!"पॉलिश", t!"पोर्तुगीज", t!"ब्रझिलियन पोर्तुगीज", t!"रोमेनियन", t!"रशियन", t!"स्लोवाक", t!"स्लोवेनियन", t!"अल्बेनियन",
    t!"सर्बियन", t!"सर्बियन लॅटिन", t!"स्वीडिश", t!"स्वाहिली", t!"तमिळ", t!"तेलुगु", t!"ताजिक", t!"थाई", t!"तुर्कमेन",
    t!"तुर्की", t!"टाटर", t!"उदमर्त", t!"उईघुर", t!"युक्रेनियन", t!"उर्दू", t!"उझबेक", t!"व्हिएतनामी", t!"सोपी चायनिज",
    t!"पारंपारिक चायनिज"]

/-- /repo/humanize/locale/ms/django.po. -/
def names_ms : Names where
  locale := loc_ms
  names := [
    t!"Bahasa Afrikaans", t!"Bahasa Arab", t!"Bahasa Arab Algeria", t!"Bahasa Asturia", t!"Bahasa Azerbaijan",
    t!"Bahasa Belarus", t!"Bahasa Bulgaria", t!"Bahasa Benggali", t!"Bahasa Breton", t!"Bahasa Bosnia", t!"Bahasa Catalonia",
    t!"", t!"Bahasa Czech", t!"Bahasa Wales", t!"Bahasa Denmark", t!"Bahasa Jerman", t!"Bahasa Sorbian Rendah",
    t!"Bahasa Yunani", t!"Bahasa Inggeris", t!"Bahasa Inggeris Australia", t!"Bahasa Inggeris British", t!"Bahasa Esperanto",
    t!"Bahasa Sepanyol", t!"Bahasa Sepanyol Argentina", t!"Bahasa Sepanyol Kolumbia", t!"Bahasa Sepanyol Mexico",
    t!"Bahasa Sepanyol Nicaragua", t!"Bahasa Sepanyol Venezuela", t!"Bahasa Estonia", t!"Bahasa Bask", t!"Bahasa Farsi",
    t!"Bahassa Finland", t!"Bahasa Perancis", t!"Bahasa Frisia", t!"Bahasa Ireland", t!"Bahasa Gael Scotland",
    t!"Bahasa Galisia", t!"Bahasa Ibrani", t!"Bahasa Hindi", t!"Bahasa Kroatia", t!"Bahasa Sorbia Atasan",
    t!"Bahasa Hungary", t!"Bahasa Armenia", t!"Bahasa Interlingua", t!"Bahasa Ido", t!"Bahasa Indonesia", t!"Bahasa Igbo",
    t!"Bahasa Iceland", t!"Bahasa Itali", t!"Bahasa Jepun", t!"Bahasa Georgia", t!"Bahasa Kabylia", t!"Bahasa Kazakhstan",
    t!"Bahasa Kambodia", t!"Bahasa Kannada", t!"Bahasa Korea", t!"Bahasa Kyrgyzstan", t!"Bahasa Luxemborg",
    t!"Bahasa Lithuania", t!"Bahasa Latvia", t!"Bahasa Masedonia", t!"Malayalam", t!"Bahasa Mongol", t!"Marathi",
    t!"Bahasa Melayu", t!"Bahasa Burma", t!"", t!"Bahasa Nepal", t!"Belanda", t!"Bahasa Nynorsk Norway", t!"",
    t!"Bahasa Ossetic", t!"Bahasa Punjab", t!"Bahasa Poland", t!"Bahasa Portugal", t!"Bahasa Portugal Brazil",
    t!"Bahasa Romania", t!"Bahasa Rusia", t!"Bahasa Slovakia", t!"Bahasa Slovenia", t!"Bahasa Albania", t!"Bahasa Serbia",
    t!"Bahasa Latin Serbia", t!"Bahasa Sweden", t!"Bahasa Swahili", t!"Bahasa Tamil", t!"Bahasa Telugu", t!"Bahasa Tajik",
    t!"Bahasa Siam", t!"Bahasa Turkmenistan", t!"Bahasa Turki", t!"Bahasa Tatar", t!"Bahasa Udmurt", t!"",
    t!"Bahasa Ukraine", t!"Bahasa Urdu", t!"Bahasa Uzbekistan", t!"Bahasa Vietnam", t!"Bahasa Cina (Dipermudahkan)",
    t!"Bahasa Cina Tradisional"]

/-- /repo/humanize/locale/my/django.po. -/
def names_my : Names where
  locale := loc_my
  names := [
    t!"အာဖရိကန်", t!"အာရပ်", t!"", t!"", t!"", t!"", t!"ဘူဂေးရီယန်", t!"ဘင်းဂလီ", t!"", t!"ဘော့်စ်နီယန်", t!"ကက်တလန်", t!"",
    t!"ချက်", t!"ဝေးလ်", t!"ဒိန်းမတ်", t!"ဂျာမန်", t!"", t!"ဂရိ", t!"အင်္ဂလိပ်", t!"", t!"ဗြိတိသျှအင်္ဂလိပ်", t!"",
    t!"စပိန်", t!"", t!"", t!"", t!"", t!"", t!"", t!"", t!"", t!"", t!"", t!"", t!"", t!"", t!"", t!"", t!"", t!"", t!"",
    t!"", t!"", t!"", t!"", t!"", t!"", t!"", t!"", t!"", t!"", t!"", t!"", t!"", t!"", t!"", t!"", t!"", t!"", t!"", t!"",
    t!"", t!"", t!"", t!"", t!"", t!"", t!"", t!"", t!"", t!"", t!"", t!"", t!"", t!"", t!"", t!"", t!"", t!"", t!"", t!"",
    t!"", t!"", t!"", t!"", t!"", t!"", t!"", t!"", t!"", t!"", t!"", t!"", t!"", t!"", t!"", t!"", t!"", t!"", t!""]

/-- /repo/humanize/locale/nb/django.po. -/
def names_nb : Names where
  locale := loc_nb
  names := [
    t!"Afrikaans", t!"Arabisk", t!"Algerisk arabisk", t!"Asturiansk", t!"Aserbajdsjansk", t!"Hviterussisk", t!"Bulgarsk",
    t!"Bengalsk", t!"Bretonsk", t!"Bosnisk", t!"Katalansk", t!"", t!"Tsjekkisk", t!"Walisisk", t!"Dansk", t!"Tysk",
    t!"Lavsorbisk", t!"Gresk", t!"Engelsk", t!"Engelsk (australsk)", t!"Engelsk (britisk)", t!"Esperanto", t!"Spansk",
    t!"Argentinsk spansk", t!"Colombiansk spansk", t!"Meksikansk spansk", t!"Nicaraguansk spansk", t!"Venezuelanske spansk",
    t!"Estisk", t!"Baskisk", t!"Persisk", t!"Finsk", t!"Fransk", t!"Frisisk", t!"Irsk", t!"Skotsk-gælisk", t!"Galisisk",
    t!"Hebraisk", t!"Hindi", t!"Kroatisk", t!"Høysorbisk", t!"Ungarsk", t!"Armensk", t!"Interlingua", t!"Ido",
    t!"Indonesisk", t!"Ibo", t!"Islandsk", t!"Italiensk", t!"Japansk", t!"Georgisk", t!"Kabylsk", t!"Kasakhisk", t!"Khmer",
    t!"Kannada", t!"Koreansk", t!"Kirgisisk", t!"Luxembourgsk", t!"Litauisk", t!"Latvisk", t!"Makedonsk", t!"Malayalam",
    t!"Mongolsk", t!"Marathi", t!"Malayisk", t!"Burmesisk", t!"", t!"Nepali", t!"Nederlandsk", t!"Norsk (nynorsk)", t!"",
    t!"Ossetisk", t!"Panjabi", t!"Polsk", t!"Portugisisk", t!"Brasiliansk portugisisk", t!"Rumensk", t!"Russisk",
    t!"Slovakisk", t!"Slovensk", t!"Albansk", t!"Serbisk", t!"Serbisk latin", t!"Svensk", t!"Swahili", t!"Tamil", t!"Telugu",
    t!"Tadsjikisk", t!"Thai", t!"Turkmensk", t!"Tyrkisk", t!"Tatarisk", t!"Udmurtisk", t!"", t!"Ukrainsk", t!"Urdu",
    t!"Usbekisk", t!"Vietnamesisk", t!"Forenklet kinesisk", t!"Tradisjonell kinesisk"]

/-- /repo/humanize/locale/ne/django.po. -/
def names_ne : Names where
  locale := loc_ne
  names := [
    t!"अफ्रिकन", t!"अरबिक", t!"", t!"अस्टुरियन", t!"अजरबैजानी", t!"बेलारुसियन", t!"बुल्गेरियाली", t!"बंगाली", t!"ब्रेटोन",
    t!"बोस्नियाली", t!"क्याटालान", t!"", t!"चेक", t!"वेल्स", t!"डेनिस", t!"जर्मन", t!"तल्लो सोर्बियन", t!"ग्रिक",
    t!"अंग्रेजी", t!"अस्ट्रेलियाली अंग्रेजी", t!"बेलायती अंग्रेजी", t!"इस्परा्न्तो", t!"स्पेनिस", t!"अर्जेन्टिनाली स्पेनिस",
    t!"कोलम्बियाली स्पेनिस", t!"मेक्सिकन स्पेनिस", t!"निकारागुँवा स्पेनिस", t!"भेनेजुएला स्पेनिस", t!"इस्टोनियन", t!"बास्क",
    t!"फारसी", t!"फिन्निस", t!"फ्रान्सेली", t!"फ्रिसियन", t!"आयरिस", t!"स्कटीस गैलिक", t!"ग्यलिसियन", t!"हिब्रु",
    t!"हिन्दि ", t!"क्रोषियन", t!"माथिल्लो सोर्बियन ", t!"हन्गेरियन", t!"अर्मेनियन", t!"ईन्टरलिन्गुवा", t!"आइडु",
    t!"इन्डोनेसियाली", t!"", t!"आइसल्यान्डिक", t!"ईटालियन", t!"जापनिज", t!"जर्जीयन", t!"कबायल", t!"कजाक", t!"ख्मेर",
    t!"कन्नड", t!"कोरियाली", t!"", t!"लक्जेमबर्गेली", t!"लिथुवानियाली", t!"लाट्भियन", t!"म्यासेडोनियन", t!"मलायलम",
    t!"मंगोलियन", t!"मराठी", t!"", t!"बर्मेली", t!"", t!"नेपाली", t!"डच", t!"नर्वेली न्योर्स्क", t!"", t!"ओसेटिक",
    t!"पञ्जावी", t!"पोलिस", t!"पुर्तगाली", t!"ब्राजिली पुर्तगाली", t!"रोमानियाली", t!"रुसी", t!"सलोभाक", t!"स्लोभेनियाली",
    t!"अल्बानियाली", t!"सर्वियाली", t!"सर्वियाली ल्याटिन", t!"स्विडिस", t!"स्वाहिली", t!"तामिल", t!"तेलुगु", t!"", t!"थाई",
    t!"", t!"टर्किस", t!"टाटर", t!"उद्मुर्ट", t!"", t!"युक्रेनि", t!"उर्दु", t!"उज्बेक", t!"भियतनामी", t!"सरल चिनि",
    t!"प्राचिन चिनि"]

/-- /repo/humanize/locale/nl/django.po. -/
def names_nl : Names where
  locale := loc_nl
  names := [
    t!"Afrikaans", t!"Arabisch", t!"Algerijns Arabisch", t!"Asturisch", t!"Azerbeidzjaans", t!"Wit-Russisch", t!"Bulgaars",
    t!"Bengaals", t!"Bretons", t!"Bosnisch", t!"Catalaans", t!"Centraal-Koerdisch (Sorani)", t!"Tsjechisch", t!"Welsh",
    t!"Deens", t!"Duits", t!"Nedersorbisch", t!"Grieks", t!"Engels", t!"Australisch-Engels", t!"Brits-Engels", t!"Esperanto",
    t!"Spaans", t!"Argentijns Spaans", t!"Colombiaans Spaans", t!"Mexicaans Spaans", t!"Nicaraguaans Spaans",
    t!"Venezolaans Spaans", t!"Ests", t!"Baskisch", t!"Perzisch", t!"Fins", t!"Frans", t!"Fries", t!"Iers",
    t!"Schots-Gaelisch", t!"Galicisch", t!"Hebreeuws", t!"Hindi", t!"Kroatisch", t!"Oppersorbisch", t!"Hongaars",
    t!"Armeens", t!"Interlingua", t!"Ido", t!"Indonesisch", t!"Igbo", t!"IJslands", t!"Italiaans", t!"Japans", t!"Georgisch",
    t!"Kabylisch", t!"Kazachs", t!"Khmer", t!"Kannada", t!"Koreaans", t!"Kirgizisch", t!"Luxemburgs", t!"Litouws", t!"Lets",
    t!"Macedonisch", t!"Malayalam", t!"Mongools", t!"Marathi", t!"Maleis", t!"Birmaans", t!"", t!"Nepalees", t!"Nederlands",
    t!"Noors Nynorsk", t!"", t!"Ossetisch", t!"Punjabi", t!"Pools", t!"Portugees", t!"Braziliaans Portugees", t!"Roemeens",
    t!"Russisch", t!"Slovaaks", t!"Sloveens", t!"Albanisch", t!"Servisch", t!"Servisch Latijn", t!"Zweeds", t!"Swahili",
    t!"Tamil", t!"Telegu", t!"Tadzjieks", t!"Thai", t!"Turkmeens", t!"Turks", t!"Tataars", t!"Oedmoerts", t!"Oeigoers",
    t!"Oekraïens", t!"Urdu", t!"Oezbeeks", t!"Vietnamees", t!"Vereenvoudigd Chinees", t!"Traditioneel Chinees"]

/-- /repo/humanize/locale/nn/django.po. -/
def names_nn : Names where
  locale := loc_nn
  names := [
    t!"Afrikaans", t!"Arabisk", t!"Arabisk (algersk)", t!"Asturiansk", t!"Aserbajansk", t!"Kviterussisk", t!"Bulgarsk",
    t!"Bengalsk", t!"Bretonsk", t!"Bosnisk", t!"Katalansk", t!"", t!"Tsjekkisk", t!"Walisisk", t!"Dansk", t!"Tysk",
    t!"Lågsorbisk", t!"Gresk", t!"Engelsk", t!"Engelsk (australsk)", t!"Engelsk (britisk)", t!"Esperanto", t!"Spansk",
    t!"Spansk (argentinsk)", t!"Spansk (kolombiansk)", t!"Spansk (meksikansk)", t!"Spansk (nicaraguansk)",
    t!"Spansk (venezuelansk)", t!"Estisk", t!"Baskisk", t!"Persisk", t!"Finsk", t!"Fransk", t!"Frisisk", t!"Irsk",
    t!"Skotsk-gaelisk", t!"Galisisk", t!"Hebraisk", t!"Hindi", t!"Kroatisk", t!"Høgsorbisk", t!"Ungarsk", t!"Armensk",
    t!"Interlingua", t!"Ido", t!"Indonesisk", t!"Igbo", t!"Islandsk", t!"Italiensk", t!"Japansk", t!"Georgisk", t!"Kabylsk",
    t!"Kasakhisk", t!"Khmer", t!"Kannada", t!"Koreansk", t!"Kirgisisk", t!"Luxembourgsk", t!"Litauisk", t!"Latvisk",
    t!"Makedonsk", t!"Malayalam", t!"Mongolsk", t!"Marathi", t!"Malayisk", t!"Burmesisk", t!"", t!"Nepali", t!"Nederlandsk",
    t!"Norsk (nynorsk)", t!"", t!"Ossetisk", t!"Punjabi", t!"Polsk", t!"Portugisisk", t!"Brasiliansk portugisisk",
    t!"Rumensk", t!"Russisk", t!"Slovakisk", t!"Slovensk", t!"Albansk", t!"Serbisk", t!"Serbisk latin", t!"Svensk",
    t!"Swahili", t!"Tamil", t!"Telugu", t!"Tadsjikisk", t!"Thai", t!"Turkmensk", t!"Tyrkisk", t!"Tatarisk", t!"Udmurtisk",
    t!"", t!"Ukrainsk", t!"Urdu", t!"Usbekisk", t!"Vietnamesisk", t!"Simplifisert kinesisk", t!"Tradisjonell kinesisk"]

/-- /repo/humanize/locale/os/django.po. -/
def names_os : Names where
  locale := loc_os
  names := [
    t!"Африкаанс", t!"Араббаг", t!"", t!"", t!"Тӕтӕйраг", t!"Беларусаг", t!"Болгайраг", t!"Бенгалаг", t!"Бретойнаг",
    t!"Босниаг", t!"Каталайнаг", t!"", t!"Чехаг", t!"Уельсаг", t!"Даниаг", t!"Немыцаг", t!"", t!"Грекъаг", t!"Англисаг",
    t!"", t!"Бритайнаг англисаг", t!"Есперанто", t!"Испайнаг", t!"Аргентинаг испайнаг", t!"", t!"Мексикайнаг Испайнаг",
    t!"Никарагуайаг испайнаг", t!"Венесуелаг испайнаг", t!"Эстойнаг", t!"Баскаг", t!"Персайнаг", t!"Финнаг", t!"Францаг",
    t!"Фризаг", t!"Ирландиаг", t!"", t!"Галициаг", t!"Иврит", t!"Хинди", t!"Хорватаг", t!"", t!"Венгриаг", t!"",
    t!"Интерлингва", t!"", t!"Индонезиаг", t!"", t!"Исландаг", t!"Италиаг", t!"Япойнаг", t!"Гуырдзиаг", t!"", t!"Казахаг",
    t!"Хмераг", t!"Каннадаг", t!"Корейаг", t!"", t!"Люксембургаг", t!"Литвайаг", t!"Латвийаг", t!"Мӕчъидон", t!"Малайаг",
    t!"Монголиаг", t!"", t!"", t!"Бурмизаг", t!"", t!"Непалаг", t!"Нидерландаг", t!"Норвегийаг Нинорск", t!"", t!"Ирон",
    t!"Пенджабаг", t!"Полаг", t!"Португалаг", t!"Бразилаг португалаг", t!"Румынаг", t!"Уырыссаг", t!"Словакиаг",
    t!"Словенаг", t!"Албайнаг", t!"Сербаг", t!"Латинаг Сербаг", t!"Шведаг", t!"Суахили", t!"Тамилаг", t!"Телугу", t!"",
    t!"Тайаг", t!"", t!"Туркаг", t!"Тӕтӕйраг", t!"Удмуртаг", t!"", t!"Украинаг", t!"Урду", t!"", t!"Вьетнамаг",
    t!"Ӕнцонгонд Китайаг", t!"Традицион Китайаг"]

/-- /repo/humanize/locale/pa/django.po. -/
def names_pa : Names where
  locale := loc_pa
  names := [
    t!"ਅਫਰੀਕੀ", t!"ਅਰਬੀ", t!"", t!"", t!"ਅਜ਼ਰਬਾਈਜਾਨੀ", t!"ਬੇਲਾਰੂਸੀ", t!"ਬੁਲਗਾਰੀਆਈ", t!"ਬੰਗਾਲੀ", t!"ਬਰੇਟੋਨ", t!"ਬੋਸਨੀਆਈ",
    t!"ਕਾਟਾਲਾਨ", t!"", t!"ਚੈੱਕ", t!"ਵੈਲਸ਼", t!"ਡੈਨਿਸ਼", t!"ਜਰਮਨ", t!"", t!"ਗਰੀਕ", t!"ਅੰਗਰੇਜ਼ੀ", t!"", t!"ਬਰਤਾਨੀਵੀਂ ਅੰਗਰੇਜ਼ੀ",
    t!"", t!"ਸਪੇਨੀ", t!"ਅਰਜਨਟੀਨੀ ਸਪੇਨੀ", t!"", t!"ਮੈਕਸੀਕਨ ਸਪੇਨੀ", t!"", t!"", t!"ਈਸਟੋਨੀਆਈ", t!"ਬਸਕਿਊ", t!"ਪਰਸ਼ੀਆਈ",
    t!"ਫੈਨਿਸ਼", t!"ਫਰੈਂਚ", t!"ਫ਼ਾਰਸੀ", t!"ਆਈਰਸ਼", t!"", t!"ਗਲੀਸੀਆਈ", t!"ਹੈਬਰਿਊ", t!"ਹਿੰਦੀ", t!"ਕਰੋਆਟੀਆਈ", t!"", t!"ਹੰਗਰੀਆਈ",
    t!"", t!"", t!"", t!"ਇੰਡੋਨੇਸ਼ੀਆਈ", t!"", t!"ਆਈਸਲੈਂਡਿਕ", t!"ਇਤਾਲਵੀ", t!"ਜਾਪਾਨੀ", t!"ਜਾਰਜੀਆਈ", t!"", t!"ਕਜ਼ਾਖ", t!"ਖਮੀਰ",
    t!"ਕੰਨੜ", t!"ਕੋਰੀਆਈ", t!"", t!"", t!"ਲੀਥੁਨੀਆਈ", t!"ਲਾਟਵੀਅਨ", t!"ਮੈਕਡੋਨੀਆਈ", t!"ਮਲਿਆਲਮ", t!"ਮੰਗੋਲੀਆਈ", t!"ਮਰਾਠੀ", t!"",
    t!"", t!"", t!"ਨੇਪਾਲੀ", t!"ਡੱਚ", t!"ਨਾਰਵੇਗੀਅਨ ਨਯਨੋਰਸਕ", t!"", t!"", t!"ਪੰਜਾਬੀ", t!"ਪੋਲੈਂਡੀ", t!"ਪੁਰਤਗਾਲੀ",
    t!"ਬਰਾਜ਼ੀਲੀ ਪੁਰਤਗਾਲੀ", t!"ਰੋਮਾਨੀਆਈ", t!"ਰੂਸੀ", t!"ਸਲੋਵਾਕ", t!"ਸਲੋਵੀਨੀਆਈ", t!"ਅਲਬੀਨੀਆਈ", t!"ਸਰਬੀਆਈ", t!"ਸਰਬੀਆਈ ਲੈਟਿਨ",
    t!"ਸਵੀਡਨੀ", t!"", t!"ਤਾਮਿਲ", t!"ਤੇਲਗੂ", t!"", t!"ਥਾਈ", t!"", t!"ਤੁਰਕ", t!"ਤਤਾਰ", t!"", t!"", t!"ਯੂਕਰੇਨੀ", t!"ਉਰਦੂ", t!"",
    t!"ਵੀਅਤਨਾਮੀ", t!"ਸਧਾਰਨ ਚੀਨੀ", t!"ਮੂਲ ਚੀਨੀ"]

/-- /repo/humanize/locale/pl/django.po. -/
def names_pl : Names where
  locale := loc_pl
  names := [
    t!"afrykanerski", t!"arabski", t!"algierski arabski", t!"asturyjski", t!"azerski", t!"białoruski", t!"bułgarski",
    t!"bengalski", t!"bretoński", t!"bośniacki", t!"kataloński", t!"sorani", t!"czeski", t!"walijski", t!"duński",
    t!"niemiecki", t!"dolnołużycki", t!"grecki", t!"angielski", t!"australijski angielski", t!"brytyjski angielski",
    t!"esperanto", t!"hiszpański", t!"hiszpański argentyński", t!"hiszpański kolumbijski", t!"hiszpański meksykański",
    t!"hiszpański nikaraguański", t!"hiszpański wenezuelski", t!"estoński", t!"baskijski", t!"perski", t!"fiński",
    t!"francuski", t!"fryzyjski", t!"irlandzki", t!"Szkocki gaelicki", t!"galicyjski", t!"hebrajski", t!"hindi",
    t!"chorwacki", t!"górnołużycki", t!"węgierski", t!"ormiański", t!"interlingua", t!"ido", t!"indonezyjski", t!"igbo",
    t!"islandzki", t!"włoski", t!"japoński", t!"gruziński", t!"kabylski", t!"kazachski", t!"khmerski", t!"kannada",
    t!"koreański", t!"kirgiski", t!"luksemburski", t!"litewski", t!"łotewski", t!"macedoński", t!"malajski", t!"mongolski",
    t!"marathi", t!"malajski", t!"birmański", t!"", t!"nepalski", t!"holenderski", t!"norweski (nynorsk)", t!"",
    t!"osetyjski", t!"pendżabski", t!"polski", t!"portugalski", t!"portugalski brazylijski", t!"rumuński", t!"rosyjski",
    t!"słowacki", t!"słoweński", t!"albański", t!"serbski", t!"serbski (łaciński)", t!"szwedzki", t!"suahili", t!"tamilski",
    t!"telugu", t!"tadżycki", t!"tajski", t!"turkmeński", t!"turecki", t!"tatarski", t!"udmurcki", t!"ujgurski",
    t!"ukraiński", t!"urdu", t!"uzbecki", t!"wietnamski", t!"chiński uproszczony", t!"chiński tradycyjny"]

/-- /repo/humanize/locale/pt/django.po. -/
def names_pt : Names where
  locale := loc_pt
  names := [
    t!"Africâner", t!"Árabe", t!"Árabe Argelino", t!"Asturiano", t!"Azerbaijano", t!"Bielorusso", t!"Búlgaro", t!"Bengalês",
    t!"Bretão", t!"Bósnio", t!"Catalão", t!"Curdo Central (Sorani)", t!"Checo", t!"Galês", t!"Dinamarquês", t!"Alemão",
    t!"Sorbedo inferior", t!"Grego", t!"Inglês", t!"Inglês da Austrália", t!"Inglês Britânico", t!"Esperanto", t!"Espanhol",
    t!"Espanhol Argentino", t!"Espanhol Colombiano", t!"Espanhol mexicano", t!"Nicarágua Espanhol", t!"Espanhol Venezuelano",
    t!"Estónio", t!"Basco", t!"Persa", t!"Filandês", t!"Francês", t!"Frisão", t!"Irlandês", t!"Escocês Gaélico",
    t!"Galaciano", t!"Hebraico", t!"Hindi", t!"Croata", t!"Sorbedo superior", t!"Húngaro", t!"Arménio", t!"Interlíngua",
    t!"Ido", t!"Indonésio", t!"Igbo", t!"Islandês", t!"Italiano", t!"Japonês", t!"Georgiano", t!"Kabyle", t!"Cazaque",
    t!"Khmer", t!"Canarês", t!"Coreano", t!"", t!"Luxemburguês", t!"Lituano", t!"Letão", t!"Macedónio", t!"Malaiala",
    t!"Mongol", t!"Marathi", t!"", t!"Birmanês", t!"", t!"Nepali", t!"Holandês", t!"Norueguês (Nynors)", t!"", t!"Ossetic",
    t!"Panjabi", t!"Polaco", t!"Português", t!"Português Brasileiro", t!"Romeno", t!"Russo", t!"Eslovaco", t!"Esloveno",
    t!"Albanês", t!"Sérvio", t!"Sérvio Latim", t!"Sueco", t!"Suaíli", t!"Tamil", t!"Telugu", t!"Tajique", t!"Thai", t!"",
    t!"Turco", t!"Tatar", t!"Udmurte", t!"", t!"Ucraniano", t!"Urdu", t!"", t!"Vietnamita", t!"Chinês Simplificado",
    t!"Chinês Tradicional"]

/-- /repo/humanize/locale/ptBR/django.po. -/
def names_ptBR : Names where
  locale := loc_ptBR
  names := [
    t!"Africânder", t!"Árabe", t!"Árabe Argelino", t!"Asturiano", t!"Azerbaijão", t!"Bielorrussa", t!"Búlgaro", t!"Bengali",
    t!"Bretão", t!"Bósnio", t!"Catalão", t!"Curdo Central (Sorâni)", t!"Tcheco", t!"Galês", t!"Dinamarquês", t!"Alemão",
    t!"Sorábio Baixo", t!"Grego", t!"Inglês", t!"Inglês Australiano", t!"Inglês Britânico", t!"Esperanto", t!"Espanhol",
    t!"Espanhol Argentino", t!"Espanhol Colombiano", t!"Espanhol Mexicano", t!"Espanhol Nicaraguense",
    t!"Espanhol Venuzuelano", t!"Estoniano", t!"Basco", t!"Persa", t!"Finlandês", t!"Francês", t!"Frísia", t!"Irlandês",
    t!"Gaélico Escocês", t!"Galiciano", t!"Hebraico", t!"Hindi", t!"Croata", t!"Sorábio Alto", t!"Húngaro", t!"Armênio",
    t!"Interlíngua", t!"Ido", t!"Indonésio", t!"Igbo", t!"Islandês", t!"Italiano", t!"Japonês", t!"Georgiano", t!"Cabila",
    t!"Cazaque", t!"Khmer", t!"Canarês", t!"Coreano", t!"Quirguiz", t!"Luxemburguês", t!"Lituano", t!"Letão", t!"Macedônio",
    t!"Malaiala", t!"Mongol", t!"Marathi", t!"Malaia", t!"Birmanês", t!"", t!"Nepalês", t!"Neerlandês", t!"Novo Norueguês",
    t!"", t!"Osseto", t!"Punjabi", t!"Polonês", t!"Português", t!"Português Brasileiro", t!"Romeno", t!"Russo", t!"Eslovaco",
    t!"Esloveno", t!"Albanesa", t!"Sérvio", t!"Sérvio Latino", t!"Sueco", t!"Suaíli", t!"Tâmil", t!"Telugu", t!"Tadjique",
    t!"Tailandês", t!"Turcomano", t!"Turco", t!"Tatar", t!"Udmurt", t!"Uigur", t!"Ucraniano", t!"Urdu", t!"Uzbeque",
    t!"Vietnamita", t!"Chinês Simplificado", t!"Chinês Tradicional"]

/-- /repo/humanize/locale/ro/django.po. -/
def names_ro : Names where
  locale := loc_ro
  names := [
    t!"Afrikaans", t!"Arabă", t!"", t!"Asturiană", t!"Azeră", t!"Bielorusă", t!"Bulgară", t!"Bengaleză", t!"Bretonă",
    t!"Bosniacă", t!"Catalană", t!"", t!"Cehă", t!"Galeză", t!"Daneză", t!"Germană", t!"Soraba Inferioară", t!"Greacă",
    t!"Engleză", t!"Engleză australiană", t!"Engleză britanică", t!"Esperanto", t!"Spaniolă", t!"Spaniolă Argentiniană",
    t!"Spaniolă Columbiană", t!"Spaniolă Mexicană", t!"Spaniolă Nicaragua", t!"Spaniolă venezueleană", t!"Estonă", t!"Bască",
    t!"Persană", t!"Finlandeză", t!"Franceză", t!"Frizian", t!"Irlandeză", t!"Galeză Scoțiană", t!"Galiciană", t!"Ebraică",
    t!"Hindi", t!"Croată", t!"Soraba Superioară", t!"Ungară", t!"Armeană", t!"Interlingua", t!"Ido", t!"Indoneză", t!"",
    t!"Islandeză", t!"Italiană", t!"Japoneză", t!"Georgiană", t!"Kabyle", t!"Kazahă", t!"Khmeră", t!"Limba kannada",
    t!"Koreană", t!"", t!"Luxemburgheză", t!"Lituaniană", t!"Letonă", t!"Macedoneană", t!"Malayalam", t!"Mongolă",
    t!"Marathi", t!"", t!"Burmeză", t!"", t!"Nepaleză", t!"Olandeză", t!"Norvegiană Nynorsk", t!"", t!"Osețiană",
    t!"Punjabi", t!"Poloneză", t!"Portugheză", t!"Portugheză braziliană", t!"Română", t!"Rusă", t!"Slovacă", t!"Slovenă",
    t!"Albaneză", t!"Sârbă", t!"Sârbă latină", t!"Suedeză", t!"Swahili", t!"Limba tamila", t!"Limba telugu", t!"",
    t!"Tailandeză", t!"", t!"Turcă", t!"Tătară", t!"Udmurtă", t!"", t!"Ucraineană", t!"Urdu", t!"Uzbecă", t!"Vietnameză",
    t!"Chineză simplificată", t!"Chineză tradițională"]

/-- /repo/humanize/locale/ru/django.po. -/
def names_ru : Names where
  locale := loc_ru
  names := [
    t!"Бурский", t!"Арабский", t!"Алжирский арабский", t!"Астурийский", t!"Азербайджанский", t!"Белоруский", t!"Болгарский",
    t!"Бенгальский", t!"Бретонский", t!"Боснийский", t!"Каталанский", t!"Центральнокурдский (Сорани)", t!"Чешский",
    t!"Уэльский", t!"Датский", t!"Немецкий", t!"Нижнелужицкий", t!"Греческий", t!"Английский", t!"Австралийский английский",
    t!"Британский английский", t!"Эсперанто", t!"Испанский", t!"Аргентинский испанский", t!"Колумбийский испанский",
    t!"Мексиканский испанский", t!"Никарагуанский испанский", t!"Венесуэльский Испанский", t!"Эстонский", t!"Баскский",
    t!"Персидский", t!"Финский", t!"Французский", t!"Фризский", t!"Ирландский", t!"Шотландский гэльский", t!"Галисийский",
    t!"Иврит", t!"Хинди", t!"Хорватский", t!"Верхнелужицкий", t!"Венгерский", t!"Армянский", t!"Интерлингва", t!"Идо",
    t!"Индонезийский", t!"Игбо", t!"Исландский", t!"Итальянский", t!"Японский", t!"Грузинский", t!"Кабильский",
    t!"Казахский", t!"Кхмерский", t!"Каннада", t!"Корейский", t!"Киргизский", t!"Люксембургский", t!"Литовский",
    t!"Латвийский", t!"Македонский", t!"Малаялам", t!"Монгольский", t!"Маратхи", t!"Малайский", t!"Бирманский", t!"",
    t!"Непальский", t!"Голландский", t!"Норвежский (Нюнорск)", t!"", t!"Осетинский", t!"Панджаби", t!"Польский",
    t!"Португальский", t!"Бразильский португальский", t!"Румынский", t!"Русский", t!"Словацкий", t!"Словенский",
    t!"Албанский", t!"Сербский", t!"Сербский (латиница)", t!"Шведский", t!"Суахили", t!"Тамильский", t!"Телугу",
    t!"Таджикский", t!"Тайский", t!"Туркменский", t!"Турецкий", t!"Татарский", t!"Удмуртский", t!"Уйгурский", t!"Украинский",
    t!"Урду", t!"Узбекский", t!"Вьетнамский", t!"Упрощенный китайский", t!"Традиционный китайский"]

/-- /repo/humanize/locale/sk/django.po. -/
def names_sk : Names where
  locale := loc_sk
  names := [
    t!"afrikánsky", t!"arabský", t!"alžírsky arabsky", t!"astúrsky", t!"azerbajdžansky", t!"bielorusky", t!"bulharsky",
    t!"bengálsky", t!"bretónsky", t!"bosniansky", t!"katalánsky", t!"stredná kurdčina (Sorani)", t!"česky", t!"walesky",
    t!"dánsky", t!"nemecky", t!"dolnolužická srbčina", t!"grécky", t!"anglicky", t!"austrálskou angličtinou",
    t!"britskou angličtinou", t!"esperantsky", t!"španielsky", t!"argentínska španielčina", t!"kolumbijská španielčina",
    t!"mexická španielčina", t!"nikaragujská španielčina", t!"venezuelská španielčina", t!"estónsky", t!"baskicky",
    t!"perzsky", t!"fínsky", t!"francúzsky", t!"frízsky", t!"írsky", t!"škótska gaelčina", t!"galícijsky", t!"hebrejsky",
    t!"hindsky", t!"chorvátsky", t!"hornolužická srbčina", t!"maďarsky", t!"arménsky", t!"interlinguánsky", t!"ido",
    t!"indonézsky", t!"igbožsky", t!"islandsky", t!"taliansky", t!"japonsky", t!"gruzínsky", t!"kabylsky", t!"kazašsky",
    t!"kmérsky", t!"kannadsky", t!"kórejsky", t!"kirgizsky", t!"luxembursky", t!"litovsky", t!"lotyšsky", t!"macedónsky",
    t!"malajalámsky", t!"mongolsky", t!"maráthsky", t!"malajčina", t!"barmsky", t!"", t!"nepálsky", t!"holandsky",
    t!"nórsky (Nynorsk)", t!"", t!"osetsky", t!"pandžábsky", t!"poľsky", t!"portugalsky", t!"portugalsky (Brazília)",
    t!"rumunsky", t!"rusky", t!"slovensky", t!"slovinsky", t!"albánsky", t!"srbsky", t!"srbsky (Latin)", t!"švédsky",
    t!"svahilsky", t!"tamilsky", t!"telugsky", t!"tadžiksky", t!"thajsky", t!"turkménsky", t!"turecky", t!"tatársky",
    t!"udmurtsky", t!"ujgursky", t!"ukrajinsky", t!"urdsky", t!"uzbecky", t!"vietnamsky", t!"čínsky (zjednodušene)",
    t!"čínsky (tradične)"]

/-- /repo/humanize/locale/sl/django.po. -/
def names_sl : Names where
  locale := loc_sl
  names := [
    t!"Afrikanščina", t!"Arabščina", t!"alžirska arabščina", t!"Asturijski jezik", t!"Azerbajdžanščina", t!"Belorusko",
    t!"Bolgarščina", t!"Bengalščina", t!"Bretonščina", t!"Bosanščina", t!"Katalonščina", t!"", t!"Češčina",
    t!"Valežanski jezik", t!"Danščina", t!"Nemščina", t!"Dolnjelužiška srbščina", t!"Grščina", t!"Angleščina",
    t!"Avstralska angleščina", t!"Britanska Angleščina", t!"Esperanto", t!"Španščina", t!"Argentinska španščina",
    t!"Kolumbijska španščina", t!"Mehiška španščina", t!"Nikaragvijska španščina", t!"Španščina (Venezuela)", t!"Estonščina",
    t!"Baskovščina", t!"Perzijščina", t!"Finščina", t!"Francoščina", t!"Frizijščina", t!"Irščina", t!"Škotska gelščina",
    t!"Galičanski jezik", t!"Hebrejski jezik", t!"Hindujščina", t!"Hrvaščina", t!"Gornjelužiška srbščina", t!"Madžarščina",
    t!"armenščina", t!"Interlingua", t!"Jezik Ido", t!"Indonezijski", t!"", t!"Islandski jezik", t!"Italijanščina",
    t!"Japonščina", t!"Gruzijščina", t!"Kabilski jezik", t!"Kazaščina", t!"Kmerščina", t!"Kanareščina", t!"Korejščina", t!"",
    t!"Luksemburščina", t!"Litvanščina", t!"Latvijščina", t!"Makedonščina", t!"Malajalščina", t!"Mongolščina",
    t!"Jezik Marathi", t!"", t!"Burmanski jezik", t!"", t!"Nepalščina", t!"Nizozemščina", t!"Norveščina Nynorsk", t!"",
    t!"Osetski jezik", t!"Pandžabščina", t!"Poljščina", t!"Portugalščina", t!"Brazilska portugalščina", t!"Romunščina",
    t!"Ruščina", t!"Slovaščina", t!"Slovenščina", t!"Albanščina", t!"Srbščina", t!"Srbščina v latinici", t!"Švedščina",
    t!"Svahili", t!"Tamilščina", t!"Teluščina", t!"", t!"Tajski jezik", t!"", t!"Turščina", t!"Tatarščina",
    t!"Udmurski jezik", t!"", t!"Ukrajinščina", t!"Jezik Urdu", t!"", t!"Vietnamščina", t!"Poenostavljena kitajščina",
    t!"Tradicionalna kitajščina"]

/-- /repo/humanize/locale/sq/django.po. -/
def names_sq : Names where
  locale := loc_sq
  names := [
    t!"Afrikaans", t!"Arabisht", t!"Arabishte Algjeriane", t!"Asturiase", t!"Azerbajxhanisht", t!"Bjellorusisht",
    t!"Bullgarisht", t!"Bengalisht", t!"Bretonisht", t!"Boshnjake", t!"Katalanisht", t!"Kurdishte e Qendrës (Sorani)",
    t!"Çekisht", t!"Uellsisht", t!"Danisht", t!"Gjermanisht", t!"Sorbishte e Poshtme", t!"Greqisht", t!"Anglisht",
    t!"Anglishte Australie", t!"Anglishte Britanie", t!"Esperanto", t!"Spanjisht", t!"Spanjishte Argjentine",
    t!"Spanjishte Kolumbie", t!"Spanjishte Meksike", t!"Spanjishte Nikaraguaje", t!"Spanjishte Venezuele", t!"Estonisht",
    t!"Baskisht", t!"Persisht", t!"Finlandisht", t!"Frënge", t!"Frisisht", t!"Irlandisht", t!"Skocisht Gaelike", t!"Galike",
    t!"Hebraisht", t!"Indisht", t!"Kroatisht", t!"Sorbishte e Sipërme", t!"Hungarisht", t!"Armenisht", t!"Interlingua",
    t!"Ido", t!"Indonezisht", t!"Igbo", t!"Islandisht", t!"Italisht", t!"Japonisht", t!"Gjeorgjisht", t!"Kabilisht",
    t!"Kazake", t!"Khmere", t!"Kannada", t!"Koreanisht", t!"Kirgize", t!"Luksemburgase", t!"Lituanisht", t!"Letonisht",
    t!"Maqedonisht", t!"Malajalame", t!"Mongoliisht", t!"Marati", t!"Malajase", t!"Burmeze", t!"", t!"Nepalisht",
    t!"Holandisht", t!"Norvegjishte Nynorsk", t!"", t!"Osetisht", t!"Panxhabisht", t!"Polonisht", t!"Portugalisht",
    t!"Portugalishte Brazili", t!"Rumanisht", t!"Rusisht", t!"Sllovakisht ", t!"Sllovenisht", t!"Shqip", t!"Serbisht",
    t!"Serbisht Latine", t!"Suedisht", t!"Suahilisht", t!"Tamilisht", t!"Telugu", t!"Taxhike", t!"Tajlandisht", t!"Turkmene",
    t!"Turqisht", t!"Tatare", t!"Udmurt", t!"Ujgure", t!"Ukrainisht", t!"Urdu", t!"Uzbeke", t!"Vietnamisht",
    t!"Kineze e Thjeshtuar", t!"Kineze Tradicionale"]

/-- /repo/humanize/locale/sr/django.po. -/
def names_sr : Names where
  locale := loc_sr
  names := [
    t!"африкански", t!"арапски", t!"Алжирски арапски", t!"астуријски", t!"азербејџански", t!"белоруски", t!"бугарски",
    t!"бенгалски", t!"бретонски", t!"босански", t!"каталонски", t!"централнокурдски (сорани)", t!"чешки", t!"велшки",
    t!"дански", t!"немачки", t!"доњолужичкосрпски", t!"грчки", t!"енглески", t!"аустралијски енглески",
    t!"британски енглески", t!"есперанто", t!"шпански", t!"аргентински шпански", t!"колумбијски шпански",
    t!"мексички шпански", t!"никарагвански шпански", t!"венецуелански шпански", t!"естонски", t!"баскијски", t!"персијски",
    t!"фински", t!"француски", t!"фризијски", t!"ирски", t!"шкотски гелски", t!"галицијски", t!"хебрејски", t!"хинду",
    t!"хрватски", t!"горњолужичкосрпски", t!"мађарски", t!"јерменски", t!"интерлингва", t!"идо", t!"индонежански", t!"Игбо",
    t!"исландски", t!"италијански", t!"јапански", t!"грузијски", t!"кабилски", t!"казашки", t!"кмерски", t!"канада",
    t!"корејски", t!"Киргиски", t!"луксембуршки", t!"литвански", t!"латвијски", t!"македонски", t!"малајаламски",
    t!"монголски", t!"маратхи", t!"малајски", t!"бурмански", t!"", t!"непалски", t!"холандски", t!"норвешки нови", t!"",
    t!"осетински", t!"панџаби", t!"пољски", t!"португалски", t!"бразилски португалски", t!"румунски", t!"руски",
    t!"словачки", t!"словеначки", t!"албански", t!"српски", t!"српски (латиница)", t!"шведски", t!"свахили", t!"тамилски",
    t!"телугу", t!"Таџики", t!"тајландски", t!"Туркменски", t!"турски", t!"татарски", t!"удмуртски", t!"Ујгури",
    t!"украјински", t!"урду", t!"Узбекистански", t!"вијетнамски", t!"поједностављени кинески", t!"традиционални кинески"]

/-- /repo/humanize/locale/srLatn/django.po. -/
def names_srLatn : Names where
  locale := loc_srLatn
  names := [
    t!"afrikanski", t!"arapski", t!"Alžirski arapski", t!"asturijski", t!"azerbejdžanski", t!"beloruski", t!"bugarski",
    t!"bengalski", t!"bretonski", t!"bosanski", t!"katalonski", t!"centralnokurdski (sorani)", t!"češki", t!"velški",
    t!"danski", t!"nemački", t!"donjolužičkosrpski", t!"grčki", t!"engleski", t!"australijski engleski",
    t!"britanski engleski", t!"esperanto", t!"španski", t!"argentinski španski", t!"kolumbijski španski",
    t!"meksički španski", t!"nikaragvanski španski", t!"venecuelanski španski", t!"estonski", t!"baskijski", t!"persijski",
    t!"finski", t!"francuski", t!"frizijski", t!"irski", t!"škotski galski", t!"galski", t!"hebrejski", t!"hindu",
    t!"hrvatski", t!"gornjolužičkosrpski", t!"mađarski", t!"jermenski", t!"interlingva", t!"ido", t!"indonežanski", t!"Igbo",
    t!"islandski", t!"italijanski", t!"japanski", t!"gruzijski", t!"kabilski", t!"kazaški", t!"kambodijski", t!"kanada",
    t!"korejski", t!"Kirgiski", t!"luksemburški", t!"litvanski", t!"latvijski", t!"makedonski", t!"malajalamski",
    t!"mongolski", t!"marathi", t!"malajski", t!"burmanski", t!"", t!"nepalski", t!"holandski", t!"norveški novi", t!"",
    t!"osetinski", t!"Pandžabi", t!"poljski", t!"portugalski", t!"brazilski portugalski", t!"rumunski", t!"ruski",
    t!"slovački", t!"slovenački", t!"albanski", t!"srpski", t!"srpski (latinica)", t!"švedski", t!"svahili", t!"tamilski",
    t!"telugu", t!"Tadžiki", t!"tajlandski", t!"Turkmenski", t!"turski", t!"tatarski", t!"udmurtski", t!"Ujgur",
    t!"ukrajinski", t!"Urdu", t!"Uzbekistanski", t!"vijetnamski", t!"novokineski", t!"starokineski"]

/-- /repo/humanize/locale/sv/django.po. -/
def names_sv : Names where
  locale := loc_sv
  names := [
    t!"Afrikaans", t!"Arabiska", t!"Algerisk arabiska", t!"Asturiska", t!"Azerbajdzjanska", t!"Vitryska", t!"Bulgariska",
    t!"Bengaliska", t!"Bretonska", t!"Bosniska", t!"Katalanska", t!"Kurdiska (Sorani)", t!"Tjeckiska", t!"Walesiska",
    t!"Danska", t!"Tyska", t!"Lågsorbiska", t!"Grekiska", t!"Engelska", t!"Australisk engelska", t!"Brittisk engelska",
    t!"Esperanto", t!"Spanska", t!"Argentinsk spanska", t!"Colombiansk spanska", t!"Mexikansk spanska",
    t!"Nicaraguansk spanska", t!"Spanska (Venezuela)", t!"Estländska", t!"Baskiska", t!"Persiska", t!"Finska", t!"Franska",
    t!"Frisiska", t!"Irländska", t!"Skotsk gäliska", t!"Galisiska", t!"Hebreiska", t!"Hindi", t!"Kroatiska", t!"Högsorbiska",
    t!"Ungerska", t!"Armeniska", t!"Interlingua", t!"Ido", t!"Indonesiska", t!"Igbo", t!"Isländska", t!"Italienska",
    t!"Japanska", t!"Georgiska", t!"Kabyliska", t!"Kazakiska", t!"Khmer", t!"Kannada", t!"Koreanska", t!"Kirgiziska",
    t!"Luxemburgiska", t!"Lettiska", t!"Lettiska", t!"Makedonska", t!"Malayalam", t!"Mongoliska", t!"Marathi", t!"Malajiska",
    t!"Burmesiska", t!"", t!"Nepali", t!"Holländska", t!"Norska (nynorsk)", t!"", t!"Ossetiska", t!"Punjabi", t!"Polska",
    t!"Portugisiska", t!"Brasiliensk portugisiska", t!"Rumänska", t!"Ryska", t!"Slovakiska", t!"Slovenska", t!"Albanska",
    t!"Serbiska", t!"Serbiska (latin)", t!"Svenska", t!"Swahili", t!"Tamilska", t!"Telugu", t!"Tadzjikiska", t!"Thailändska",
    t!"Turkmeniska", t!"Turkiska", t!"Tatariska", t!"Udmurtiska", t!"Uiguriska", t!"Ukrainska", t!"Urdu", t!"Uzbekiska",
    t!"Vietnamesiska", t!"Förenklad Kinesiska", t!"Traditionell Kinesiska"]

/-- /repo/humanize/locale/sw/django.po. -/
def names_sw : Names where
  locale := loc_sw
  names := [
    t!"Kiafrikaani", t!"Kiarabu", t!"", t!"", t!"Kiazerbaijani", t!"Kibelarusi", t!"Kibulgaria", t!"Kibengali",
    t!"Kibretoni", t!"Kibosnia", t!"Kikatalani", t!"", t!"Kicheki", t!"Kiweli", t!"Kideni", t!"Kijerumani", t!"",
    t!"Kigiriki", t!"Kiingereza", t!"Kiingereza cha Kiaustalia", t!"Kiingereza cha Uingereza", t!"Kiesperanto",
    t!"Kihispania", t!"Kihispania cha Argentina", t!"", t!"Kihispania cha Mexico", t!"Kihispania cha Nikaragua",
    t!"Kihispania cha Kivenezuela", t!"Kiestonia", t!"Kibaskyue", t!"Kipershia", t!"Kifini", t!"Kifaransa", t!"Kifrisi",
    t!"Kiairishi", t!"", t!"Kigalatia", t!"Kiyahudi", t!"Kihindi", t!"Kikroeshia", t!"", t!"Kihangaria", t!"", t!"", t!"",
    t!"Kiindonesia", t!"", t!"Kiaiselandi", t!"Kiitaliano", t!"Kijapani", t!"Kijiojia", t!"", t!"Kizakhi", t!"Kihema",
    t!"Kikanada", t!"Kikorea", t!"", t!"", t!"Kilithuania", t!"Kilatvia", t!"Kimacedonia", t!"Kimalayalam", t!"Kimongolia",
    t!"", t!"", t!"", t!"", t!"Kinepali", t!"Kidachi", t!"Kinynorki cha Kinorwei", t!"", t!"", t!"Kipanjabi", t!"Kipolishi",
    t!"Kireno", t!"Kireno cha Kibrazili", t!"Kiromania", t!"Kirusi", t!"Kislovakia", t!"Kislovenia", t!"Kialbania",
    t!"Kiserbia", t!"Kilatini cha Kiserbia", t!"Kiswidi", t!"Kiswahili", t!"Kitamili", t!"kitegulu", t!"", t!"Kithai", t!"",
    t!"Kituruki", t!"Kitatari", t!"", t!"", t!"Kiukreni", t!"Kiurdu", t!"", t!"Kivietinamu", t!"Kichina Kilichorahisishwa",
    t!"Kichina Asilia"]

/-- /repo/humanize/locale/ta/django.po. -/
def names_ta : Names where
  locale := loc_ta
  names := [
    t!"", t!"அரபிக்", t!"", t!"", t!"", t!"", t!"", t!"பெங்காலி", t!"", t!"", t!"", t!"", t!"செக்", t!"வெல்ஸ்", t!"டேனிஷ்",
    t!"ஜெர்மன்", t!"", t!"கிரேக்கம்", t!"ஆங்கிலம்", t!"", t!"", t!"", t!"ஸ்பானிஷ்", t!"", t!"", t!"", t!"", t!"", t!"", t!"",
    t!"", t!"பீனீஷ்", t!"ப்ரென்சு", t!"", t!"", t!"", t!"கலீஷீயன்", t!"ஹீப்ரு", t!"", t!"", t!"", t!"ஹங்கேரியன்", t!"", t!"",
    t!"", t!"", t!"", t!"ஐஸ்லான்டிக்", t!"இத்தாலியன்", t!"ஜப்பானிய", t!"", t!"", t!"", t!"", t!"", t!"", t!"", t!"", t!"",
    t!"", t!"", t!"", t!"", t!"", t!"", t!"", t!"", t!"", t!"டச்சு", t!"", t!"", t!"", t!"", t!"", t!"", t!"", t!"ரோமானியன்",
    t!"ரஷ்யன்", t!"சுலோவாக்", t!"ஸ்லோவேனியன்", t!"", t!"செர்பியன்", t!"", t!"சுவிடிஷ்", t!"", t!"தமிழ்", t!"", t!"", t!"",
    t!"", t!"துருக்கிஷ்", t!"", t!"", t!"", t!"உக்ரேனியன்", t!"", t!"", t!"", t!"எளிய சீன மொழி", t!"மரபு சீன மொழி"]

/-- /repo/humanize/locale/te/django.po. -/
def names_te : Names where
  locale := loc_te
  names := [
    t!"ఆఫ్రికాన్స్", t!"ఆరబిక్", t!"", t!"", t!"అజేర్బైజని ", t!"బెలారషియన్", t!"బల్గేరియన్", t!"బెంగాలీ", t!"బ్రిటన్",
    t!"బోస్నియన్", t!"కాటలాన్", t!"", t!"ఛెక్", t!"వెల్ష్", t!"డానిష్", t!"జెర్మన్", t!"", t!"గ్రీక్", t!"ఆంగ్లం", t!"",
    t!"బ్రిటీష్ ఆంగ్లం", t!"ఎస్పరాంటో", t!"స్పానిష్", t!"అర్జెంటీనా స్పానిష్", t!"", t!"మెక్షికన్  స్పానిష్ ", t!"",
    t!"వెనుజులా స్పానిష్", t!"ఎస్టొనియన్", t!"బాస్క్", t!"పారసీ", t!"ఫీన్నిష్", t!"ఫ్రెంచ్", t!"ఫ్రిసియన్", t!"ఐరిష్", t!"",
    t!"గలిసియన్", t!"హీబ్రూ", t!"హిందీ", t!"క్రొయేషియన్", t!"", t!"హంగేరియన్", t!"", t!"ఇంటర్లింగ్వా", t!"", t!"ఇండోనేషియన్",
    t!"", t!"ఐస్లాండిక్", t!"ఇటాలియవ్", t!"జపనీ", t!"జార్జియన్", t!"", t!"కజఖ్", t!"ఖ్మెర్", t!"కన్నడ", t!"కొరియన్", t!"",
    t!"లగ్జెంబర్గిష్", t!"లిథుయేనియన్", t!"లాత్వియన్", t!"మెసిడోనియన్", t!"మలయాళం", t!"మంగోలియన్", t!"", t!"", t!"బర్మీస్",
    t!"", t!"నేపాలీ", t!"డచ్", t!"నోర్వేగియన్ న్య్నోర్స్క్ ", t!"", t!"", t!"పంజాబీ", t!"పొలిష్", t!"పోర్చుగీస్",
    t!"బ్రజీలియన్  పోర్చుగీస్", t!"రొమానియన్", t!"రష్యన్", t!"స్లొవాక్", t!"స్లొవానియన్", t!"అల్బేనియన్", t!"సెర్బియన్",
    t!"సెర్బియన్ లాటిన్", t!"స్వీడిష్", t!"స్వాహిలి", t!"తమిళం", t!"తెలుగు", t!"", t!"థాయి", t!"", t!"టర్కిష్", t!"టటర్",
    t!"", t!"", t!"ఉక్రేనియన్", t!"ఉర్దూ", t!"", t!"వియెత్నామీ", t!"సరళ చైనీ", t!"సాంప్రదాయ  చైనీ"]

/-- /repo/humanize/locale/tg/django.po. -/
def names_tg : Names where
  locale := loc_tg
  names := [
    t!"Ҳолландӣ", t!"Арабӣ", t!"Арабӣ", t!"Астурӣ", t!"Озарбойҷонӣ", t!"Белорусӣ", t!"Булғорӣ", t!"Бенгалӣ", t!"Бретонӣ",
    t!"Боснӣ", t!"Каталанӣ", t!"", t!"Чехӣ", t!"Уэлсӣ", t!"Даниягӣ", t!"Олмонӣ", t!"Сербиягӣ", t!"Юнонӣ", t!"Англисӣ",
    t!"Англисии австралиёӣ", t!"Ангилисии бритониёӣ", t!"Эсперантоӣ", t!"Испанӣ", t!"Испании аргентиноӣ",
    t!"Испании колумбигӣ", t!"Испании мексикоӣ", t!"Никарагуанский испанский", t!"Испании венесуэлӣ", t!"Эстонӣ",
    t!"Баскувӣ", t!"Форсӣ", t!"Финикӣ", t!"Фаронсавӣ", t!"Фризӣ", t!"Ирландӣ", t!"Шотландӣ", t!"", t!"Ивритӣ", t!"Ҳиндӣ",
    t!"Хорватӣ", t!"Себриягӣ", t!"", t!"Арманӣ", t!"", t!"", t!"Индонезӣ", t!"", t!"Исландӣ", t!"Итолиёвӣ", t!"Японӣ",
    t!"Грузӣ", t!"Кабилӣ", t!"Қазоқӣ", t!"", t!"", t!"Кореӣ", t!"", t!"Люксембургӣ", t!"Литвигӣ", t!"Латвигӣ", t!"Македонӣ",
    t!"", t!"Монголӣ", t!"", t!"", t!"", t!"", t!"Непалӣ", t!"Голландӣ", t!"Норвегӣ", t!"", t!"Осетинӣ", t!"Панҷобӣ",
    t!"Полякӣ", t!"Португалӣ", t!"Португалии бразилиёгӣ", t!"Руминӣ", t!"Руссӣ", t!"Словакӣ", t!"Словенӣ", t!"Албанӣ",
    t!"Сербӣ", t!"Сербӣ", t!"Шведӣ", t!"Суахили", t!"Тамилӣ", t!"Телугу", t!"", t!"Тайский", t!"", t!"Туркӣ", t!"Тоторӣ",
    t!"Удмуртӣ", t!"", t!"Украинӣ", t!"Урдуӣ", t!"Узбекӣ", t!"Вэтнамӣ", t!"Хитоӣ", t!"Хитоӣ"]

/-- /repo/humanize/locale/th/django.po. -/
def names_th : Names where
  locale := loc_th
  names := [
    t!"อาฟฟริกัน", t!"อารบิก", t!"", t!"อัสตูเรียน", t!"อาเซอร์ไบจาน", t!"เบลารุส", t!"บัลแกเรีย", t!"เบ็งกาลี", t!"เบรตัน",
    t!"บอสเนีย", t!"คาตะลาน", t!"", t!"เช็ก", t!"เวลส์", t!"เดนมาร์ก", t!"เยอรมัน", t!"", t!"กรีก", t!"อังกฤษ",
    t!"อังกฤษ - ออสเตรเลีย", t!"อังกฤษ - สหราชอาณาจักร", t!"เอสเปรันโต", t!"สเปน", t!"สเปน - อาร์เจนติน่า",
    t!"สเปน - โคลัมเบีย", t!"สเปน - เม็กซิกัน", t!"นิการากัวสเปน", t!"เวเนซุเอลาสเปน", t!"เอสโตเนีย", t!"แบ็ซค์",
    t!"เปอร์เชีย", t!"ฟินแลนด์", t!"ฝรั่งเศส", t!"ฟริเซียน", t!"ไอริช", t!"", t!"กาลิเซีย", t!"ฮีบรู", t!"ฮินดี",
    t!"โครเอเชีย", t!"", t!"ฮังการี", t!"อาร์เมเนียน", t!"ภาษากลาง", t!"", t!"อินโดนิเซีย", t!"", t!"ไอซ์แลนด์", t!"อิตาลี",
    t!"ญี่ปุ่น", t!"จอร์เจีย", t!"", t!"คาซัค", t!"เขมร", t!"กัณณาท", t!"เกาหลี", t!"", t!"ลักแซมเบิร์ก", t!"ลิทัวเนีย",
    t!"ลัตเวีย", t!"มาซิโดเนีย", t!"มลายู", t!"มองโกเลีย", t!"", t!"", t!"พม่า", t!"", t!"เนปาล", t!"ดัตช์",
    t!"นอร์เวย์ - Nynorsk", t!"", t!"", t!"ปัญจาบี", t!"โปแลนด์", t!"โปรตุเกส", t!"โปรตุเกส (บราซิล)", t!"โรมาเนีย",
    t!"รัสเซีย", t!"สโลวัก", t!"สโลวีเนีย", t!"อัลแบเนีย", t!"เซอร์เบีย", t!"เซอร์เบียละติน", t!"สวีเดน", t!"สวาฮีลี",
    t!"ทมิฬ", t!"เตลุคู", t!"", t!"ไทย", t!"", t!"ตุรกี", t!"ตาตาร์", t!"อัดเมิร์ท", t!"", t!"ยูเครน", t!"เออร์ดู", t!"",
    t!"เวียดนาม", t!"จีนตัวย่อ", t!"จีนตัวเต็ม"]

/-- /repo/humanize/locale/tk/django.po. -/
def names_tk : Names where
  locale := loc_tk
  names := [
    t!"Afrikaans", t!"Arapça", t!"Alžir Arapçasy", t!"Asturian", t!"Azeri Türkçesi", t!"Belarusça", t!"Bolgar", t!"Bengali",
    t!"Breton", t!"Bosniýaça", t!"Katalan", t!"Merkezi Kürtçe (Soraniçe)", t!"Çehçe", t!"Uelsçe", t!"Daniýaça", t!"Nemesçe",
    t!"Aşaky Sorbian", t!"Grekçe", t!"Iňlisçe", t!"Awstraliýa Iňlisçesi", t!"Britan Iňlisçesi", t!"Esperanto", t!"Ispança",
    t!"Argentina Ispançasy", t!"Kolumbiýa Ispançasy", t!"Meksika Ispançasy", t!"Nikaragua Ispançasy",
    t!"Wenezuela Ispançasy", t!"Estonça", t!"Baskça", t!"Parsça", t!"Finçe", t!"Fransuzça", t!"Frisça", t!"Irlandça",
    t!"Şotlandiýa Gaelçasy", t!"Galisiýaça", t!"Ýewreýçe", t!"Hindi", t!"Horwatça", t!"Ýokarky Sorbian", t!"Wengerçe",
    t!"Ermeniçe", t!"Interlingua", t!"Ido", t!"Indonezça", t!"Igbo", t!"Islandça", t!"Italýança", t!"Ýaponça", t!"Gruzinçe",
    t!"Kabyle", t!"Gazakça", t!"Hmerçe", t!"Kannada", t!"Koreýçe", t!"Gyrgyzça", t!"Lýuksemburgça", t!"Litwança",
    t!"Latwiýaça", t!"Makedonça", t!"Malaýalam", t!"Mongolça", t!"Marasi", t!"Malaý", t!"Birma", t!"", t!"Nepali",
    t!"Gollandça", t!"Norwegiýa Nynorskçasy", t!"", t!"Osetikçe", t!"Penjebiçe", t!"Polýakça", t!"Portugalça",
    t!"Braziliýa Portugalçasy", t!"Rumynça", t!"Rusça", t!"Slowakça", t!"Slowençe", t!"Albança", t!"Serbçe",
    t!"Serb Latynçasy", t!"Şwedçe", t!"Swahili", t!"Tamil", t!"Telugu", t!"Täjik", t!"Taýça", t!"Türkmençe", t!"Türkçe",
    t!"Tatarça", t!"Udmurt", t!"Uýgur", t!"Ukrainçe", t!"Urduça", t!"Özbekçe", t!"Wýetnamça", t!"Ýönekeýleşdirilen Hytaýça",
    t!"Adaty Hytaýça"]

/-- /repo/humanize/locale/tr/django.po. -/
def names_tr : Names where
  locale := loc_tr
  names := [
    t!"Afrikanca", t!"Arapça", t!"Cezayir Arapçası", t!"Asturyaca", t!"Azerice", t!"Beyaz Rusça", t!"Bulgarca", t!"Bengalce",
    t!"Bretonca", t!"Boşnakça", t!"Katalanca", t!"Orta Kürtçe (Sorani)", t!"Çekçe", t!"Galce", t!"Danca", t!"Almanca",
    t!"Aşağı Sorb dili", t!"Yunanca", t!"İngilizce", t!"Avusturya İngilizcesi", t!"İngiliz İngilizcesi", t!"Esperanto dili",
    t!"İspanyolca", t!"Arjantin İspanyolcası", t!"Kolomiya İspanyolcası", t!"Meksika İspanyolcası",
    t!"Nikaragua İspanyolcası", t!"Venezüella İspanyolcası", t!"Estonca", t!"Baskça", t!"Farsça", t!"Fince", t!"Fransızca",
    t!"Frizce", t!"İrlandaca", t!"İskoçça Galcesi", t!"Galiçyaca", t!"İbranice", t!"Hintçe", t!"Hırvatça",
    t!"Yukarı Sorb dili", t!"Macarca", t!"Ermenice", t!"Interlingua", t!"Ido dili", t!"Endonezce", t!"Igbo dili",
    t!"İzlandaca", t!"İtalyanca", t!"Japonca", t!"Gürcüce", t!"Kabiliye dili", t!"Kazakça", t!"Kmerce", t!"Kannada dili",
    t!"Korece", t!"Kırgızca", t!"Lüksemburgca", t!"Litovca", t!"Letonca", t!"Makedonca", t!"Malayamca", t!"Moğolca",
    t!"Marathi dili", t!"Malayca", t!"Birmanca", t!"", t!"Nepalce", t!"Flemenkçe", t!"Norveççe Nynorsk", t!"", t!"Osetçe",
    t!"Pencapça", t!"Lehçe", t!"Portekizce", t!"Brezilya Portekizcesi", t!"Romence", t!"Rusça", t!"Slovakça", t!"Slovence",
    t!"Arnavutça", t!"Sırpça", t!"Sırpça Latin", t!"İsveççe", t!"Savahilice", t!"Tamilce", t!"Telugu dili", t!"Tacikçe",
    t!"Tayca", t!"Türkmence", t!"Türkçe", t!"Tatarca", t!"Udmurtça", t!"Uygur", t!"Ukraynaca", t!"Urduca", t!"‎Özbekçe",
    t!"Vietnamca", t!"Basitleştirilmiş Çince", t!"Geleneksel Çince"]

/-- /repo/humanize/locale/tt/django.po. -/
def names_tt : Names where
  locale := loc_tt
  names := [
    t!"", t!"Гарәп теле", t!"", t!"", t!"Азәрбайҗан", t!"", t!"Болгар теле", t!"Бенгалия теле", t!"", t!"Босния теле",
    t!"Каталан теле", t!"", t!"Чех теле", t!"Уэльс теле", t!"Дания теле", t!"Алман теле", t!"", t!"Грек теле",
    t!"Инглиз теле", t!"", t!"Британ инглиз теле", t!"Эсперанто теле", t!"Испан теле", t!"Аргентина испан теле", t!"",
    t!"Мексикалы испан", t!"Никарагуалы испан", t!"", t!"Эстон теле", t!"Баск теле", t!"Фарсы теле", t!"Финн теле",
    t!"Француз теле", t!"Фриз теле", t!"Ирланд теле", t!"", t!"Галлий теле", t!"Яһүд теле", t!"Хинд теле", t!"Хорват теле",
    t!"", t!"Венгр теле", t!"", t!"", t!"", t!"Индонезия теле", t!"", t!"Исланд теле", t!"Итальян теле", t!"Япон теле",
    t!"Грузин теле", t!"", t!"Казах теле", t!"Кхмер теле", t!"Каннада теле", t!"Корея теле", t!"", t!"Люксембург теле",
    t!"Литвалылар теле", t!"Латвия теле", t!"Македон теле", t!"Малаялам теле", t!"Монгол теле", t!"", t!"", t!"", t!"", t!"",
    t!"Голланд теле", t!"Норвегиялеләр (Нюнорск) теле", t!"", t!"", t!"Паджаби теле", t!"Поляк теле", t!"Португал теле",
    t!"Бразилия португал теле", t!"Румын теле", t!"Рус теле", t!"Словак теле", t!"Словен теле", t!"Албан теле",
    t!"Серб теле", t!"Серб теле (латин алфавиты)", t!"Швед теле", t!"", t!"Тамиль теле", t!"Телугу теле", t!"", t!"Тай теле",
    t!"", t!"Төрек теле", t!"Татар теле", t!"", t!"", t!"Украин теле", t!"Урду", t!"", t!"Вьетнам теле",
    t!"Гадиләштерелгән кытай теле", t!"Традицион кытай теле"]

/-- /repo/humanize/locale/udm/django.po. -/
def names_udm : Names where
  locale := loc_udm
  names := [
    t!"Африкаанс", t!"Араб", t!"", t!"", t!"Азербайджан", t!"Беларус", t!"Болгар", t!"Бенгал", t!"Бретон", t!"Босниец",
    t!"Каталан", t!"", t!"Чех", t!"Уэльс", t!"Датчан", t!"Немец", t!"", t!"Грек", t!"Англи", t!"", t!"Британиысь англи",
    t!"Эсперанто", t!"Испан", t!"Аргентинаысь испан", t!"", t!"Мексикаысь испан", t!"Никарагуаысь испан",
    t!"Венесуэлаысь испан", t!"Эстон", t!"Баск", t!"Перс", t!"Финн", t!"Француз", t!"Фриз", t!"Ирланд", t!"", t!"Галисий",
    t!"Иврит", t!"Хинди", t!"Хорват", t!"", t!"Венгер", t!"", t!"Интерлингва", t!"", t!"Индонези", t!"", t!"Исланд",
    t!"Итальян", t!"Япон", t!"Грузин", t!"", t!"Казах", t!"Кхмер", t!"Каннада", t!"Корей", t!"", t!"Люксембург", t!"Литва",
    t!"Латвий", t!"Македон", t!"Малаялам", t!"Монгол", t!"", t!"", t!"", t!"", t!"Непал", t!"Голланд", t!"Норвег (нюнорск)",
    t!"", t!"", t!"Панджаби", t!"Поляк", t!"Португал", t!"Бразилиысь португал", t!"Румын", t!"Ӟуч", t!"Словак", t!"Словен",
    t!"Албан", t!"Серб", t!"Серб (латиницаен)", t!"Швед", t!"Суахили", t!"Тамиль", t!"Телугу", t!"", t!"Тай", t!"",
    t!"Турок", t!"Бигер", t!"Удмурт", t!"", t!"Украин", t!"Урду", t!"", t!"Вьетнам", t!"Китай (капчиятэм)",
    t!"Китай (традици)"]

/-- /repo/humanize/locale/ug/django.po. -/
def names_ug : Names where
  locale := loc_ug
  names := [
    t!"ئافرىكانسچە", t!"ئەرەبچە", t!"ئالجىرىيە ئەرەپچىسى", t!"ئاستۇرىچە", t!"ئەزەربەيجانچە", t!"بېلورۇسىچە", t!"بۇلغارچە",
    t!"بېنگالچە", t!"بىرېتونچە", t!"بوسنىيەچە", t!"كاتالانچە", t!"مەركىزى كۇردچە ( سورانى) ", t!"چېخچە", t!"ۋېلشچە",
    t!"دانىشچە", t!"گىرمانچە", t!"تۆۋەن سوربچە", t!"گىرېكچە", t!"ئىنگلىزچە", t!"ئاۋىستىرالىيە ئىنگلزچىسى\n ",
    t!"ئەنگىلىيە ئىنگىلىزچىسى", t!"دۇنيا تىلى", t!"ئىسپانچە", t!"ئارگېنتىنا ئىسپانچىسى", t!"كولۇمبىيە ئىسپانچىسى",
    t!"مېكسىكا ئىسپانچىسى", t!"نىكاراگۇئا ئىسپاچىسى", t!"ۋېنېزۇئېلا ئىسپانچىسى", t!"ئېستونىيەچە", t!"بەسىكچە", t!"پارىسچە",
    t!"ڧىنلانىدچە", t!"ڧىرانسۇزچە", t!"فىرىزىيەچە", t!"ئىرېلاندىيەچە", t!"شوتلاندىيەچە", t!"گالىچىيەچە", t!"ئىبرانىچە",
    t!"ھىندىچە", t!"كىرودىيەچە", t!"يۇقىرى سوربچە", t!"ماجارچە", t!"ئارمىنىيەچە", t!"خەلقئارالىق تىل", t!"ئىيدوچە",
    t!"ھىندىنوزىيەچە", t!"ئىبوچە", t!"ئىسلاندىيەچە", t!"ئىتالىيەچە", t!"ياپونچە", t!"گرۇزىيەچە", t!"كەبىيلچە", t!"قازاقچە",
    t!"كامىيرچە", t!"كانناداچە", t!"كورىيەچە", t!"قىرغىزچە", t!"لىيۇكسېمبۇرگچە", t!"لىتۋاچە", t!"لاتۋىيەچە",
    t!"ماكېدونىيەچە", t!"مالىيالامچە", t!"مۇڭغۇلچە", t!"ماراتىچە", t!"مالايچە", t!"بېرمىچە", t!"", t!"نېپالچە",
    t!"گوللاندىيەچە", t!"نورۋېگىيە نىنورسكچىسى", t!"", t!"ئوسېتچە", t!"پۇنجابىچە", t!"پولشاچە", t!"پورتۇگالچە",
    t!"بىرازىلىيە پورتۇگالچىسى", t!"رومەينىيەچە", t!"رۇسچە", t!"سلوۋاكىيەچە", t!"سىلوۋېنىيەچە", t!"ئالبانىيەچە",
    t!"سېربىيەچە", t!"سېربىيە لاتىنچىسى", t!"شىۋىتسىيەچە", t!"سۋاھىلچە", t!"تامىلچە", t!"تېلۇگۇ", t!"تاجىكچە", t!"تايلاندچە",
    t!"تۈركمەنچە", t!"تۈركچە", t!"تاتارچە", t!"ئۇدمۇرتچە", t!"ئۇيغۇرچە", t!"ئۇكرائىنچە", t!"ئوردۇچە", t!"ئۆزبەكچە",
    t!"ۋېيتنامچە", t!"خەنزۇچە", t!"ئەنئەنىۋى خەنزۇچىسى"]

/-- /repo/humanize/locale/uk/django.po. -/
def names_uk : Names where
  locale := loc_uk
  names := [
    t!"Африканська", t!"Арабська", t!"Алжирська арабська", t!"Астурійська", t!"Азербайджанська", t!"Білоруська",
    t!"Болгарська", t!"Бенгальська", t!"Бретонська", t!"Боснійська", t!"Каталонська", t!"Центральнокурдська (сорані)",
    t!"Чеська", t!"Валлійська", t!"Датська", t!"Німецька", t!"Нижньолужицька", t!"Грецька", t!"Англійська",
    t!"Австралійська англійська", t!"Англійська (Великобританія)", t!"Есперанто", t!"Іспанська", t!"Іспанська (Аргентина)",
    t!"Колумбійська іспанська", t!"Мексиканська іспанська", t!"Нікарагуанська іспанська", t!"Венесуельська іспанська",
    t!"Естонська", t!"Баскська", t!"Перська", t!"Фінська", t!"Французька", t!"Фризька", t!"Ірландська",
    t!"Шотландська ґельська", t!"Галіційська", t!"Іврит", t!"Хінді", t!"Хорватська", t!"Верхньолужицька", t!"Угорська",
    t!"Вірменська", t!"Інтерлінгва", t!"Ідо", t!"Індонезійська", t!"Ігбо", t!"Ісландська", t!"Італійська", t!"Японська",
    t!"Грузинська", t!"Кабіли", t!"Казахська", t!"Кхмерська", t!"Каннадська", t!"Корейська", t!"Киргизька",
    t!"Люксембурзька", t!"Литовська", t!"Латвійська", t!"Македонська", t!"Малаялам", t!"Монгольська", t!"Маратхі",
    t!"Малайська", t!"Бірманська", t!"", t!"Непальська", t!"Голландська", t!"Норвезька (Нюнорськ)", t!"", t!"Осетинська",
    t!"Панджабі", t!"Польська", t!"Португальська", t!"Бразильська португальська", t!"Румунська", t!"Російська",
    t!"Словацька", t!"Словенська", t!"Албанська", t!"Сербська", t!"Сербська (латинська)", t!"Шведська", t!"Суахілі",
    t!"Тамільська", t!"Телугу", t!"Таджицька", t!"Тайська", t!"Туркменська", t!"Турецька", t!"Татарська", t!"Удмуртська",
    t!" Уйгурська", t!"Українська", t!"Урду", t!"Узбецька", t!"В'єтнамська", t!"Китайська спрощена",
    t!"Китайська традиційна"]

/-- /repo/humanize/locale/ur/django.po. -/
def names_ur : Names where
  locale := loc_ur
  names := [
    t!"", t!"عربی", t!"", t!"", t!"", t!"", t!"بلغاری", t!"بنگالی", t!"", t!"بوسنیائی", t!"کیٹالانی", t!"", t!"زیچ",
    t!"ویلش", t!"ڈینش", t!"جرمن", t!"", t!"گریک", t!"انگلش", t!"", t!"برطانوی انگلش", t!"", t!"ھسپانوی", t!"ارجنٹائنی سپینش",
    t!"", t!"", t!"", t!"", t!"اسٹانین", t!"باسک", t!"فارسی", t!"فنش", t!"فرانسیسی", t!"فریسی", t!"آئرش", t!"", t!"گیلیشین",
    t!"عبرانی", t!"ھندی", t!"کروشن", t!"", t!"ھونگارین", t!"", t!"", t!"", t!"انڈونیشین", t!"", t!"آئس لینڈک", t!"اطالوی",
    t!"جاپانی", t!"جارجیائی", t!"", t!"", t!"خمر", t!"کناڈا", t!"کوریائی", t!"", t!"", t!"لیتھونیائی", t!"لتوینی",
    t!"میسیڈونین", t!"ملایالم", t!"منگولین", t!"", t!"", t!"", t!"", t!"", t!"ڈچ", t!"نارویائی نینورسک", t!"", t!"",
    t!"پنجابی", t!"پولش", t!"پورتگیز", t!"برازیلی پورتگیز", t!"رومانی", t!"روسی", t!"سلووک", t!"سلووینین", t!"البانوی",
    t!"سربین", t!"سربین لاطینی", t!"سویڈش", t!"", t!"تاملی", t!"تیلگو", t!"", t!"تھائی", t!"", t!"ترکش", t!"", t!"", t!"",
    t!"یوکرائنی", t!"", t!"", t!"ویتنامی", t!"سادی چینی", t!"روایتی چینی"]

/-- /repo/humanize/locale/uz/django.po. -/
def names_uz : Names where
  locale := loc_uz
  names := [
    t!"Afrika tili", t!"Arab tili", t!"Jazoir arab tili", t!"Asturiya tili", t!"Ozarbayjon tili", t!"Belorus tili",
    t!"Bolgar tili", t!"Bengal tili", t!"Breton tili", t!"Bosniya tili", t!"Katalon tili", t!"", t!"Chex tili",
    t!"Uels tili", t!"Daniya tili", t!"Nemis tili", t!"Quyi sorbiya tili", t!"Yunon tili", t!"Ingliz tili",
    t!"Avstraliya ingliz tili", t!"Britan Ingliz tili", t!"Esperanto tili", t!"Ispan tili", t!"Argentina Ispan tili",
    t!"Kolumbiya Ispan tili", t!"Meksika Ispan tili ", t!"Nikaragua Ispan tili", t!"Venesuela Ispan tili", t!"Estoniya tili",
    t!"Bask tili", t!"Fors tili", t!"Fin tili", t!"Fransuz tili", t!"Friziya tili", t!"Irland tili", t!"Shotland Gal tili",
    t!"Galisiya tili", t!"Ibroniy tili", t!"Hind tili", t!"Xorvat tili", t!"Yuqori Sorbiya tili", t!"Vengriya tili",
    t!"Arman tili", t!"Interlingua tili", t!"Ido tili", t!"Indoneziya tili", t!"Igbo tili", t!"Island tili",
    t!"Italyan tili", t!"Yapon tili", t!"Gruzin tili", t!"Kabil tili", t!"Qozoq tili", t!"Xmer tili", t!"Kannada tili",
    t!"Koreys tili", t!"Qirg'iz tili", t!"Lyuksemburg tili", t!"Litva tili", t!"Latviya tili", t!"Makedoniya tili",
    t!"Malayalam tili", t!"Mo'g'ul tili", t!"Marati tili", t!"", t!"Birma tili", t!"", t!"Nepal tili", t!"Golland tili",
    t!"Norvegiya Ninorsk tili", t!"", t!"Osetik tili", t!"Panjob tili", t!"Polyak tili", t!"Portugal tili",
    t!"Braziliya Portugal tili", t!"Rumin tili", t!"Rus tili", t!"Slovak tili", t!"Slovan tili", t!"Alban tili",
    t!"Serb tili", t!"Serbiya Lotin tili", t!"Shved tili", t!"Suaxili tili", t!"Tamil tili", t!"Telugu tili", t!"Tojik tili",
    t!"Tay tili", t!"Turkman tili", t!"Turk tili", t!"Tatar tili", t!"Udmurt tili", t!"", t!"Ukrain tili", t!"Urdu tili",
    t!"O'zbek tili", t!"Vetnam tili", t!"Soddalashtirilgan xitoy tili", t!"An'anaviy xitoy tili"]

/-- /repo/humanize/locale/vi/django.po. -/
def names_vi : Names where
  locale := loc_vi
  names := [
    t!"Afrikaans", t!"Tiếng Ả Rập", t!"", t!"Asturian", t!"Tiếng Azerbaijan", t!"Tiếng Bê-la-rút", t!"Tiếng Bun-ga-ri",
    t!"Tiếng Bengal", t!"Tiếng Breton", t!"Tiếng Bosnia", t!"Tiếng Catala", t!"", t!"Tiếng Séc", t!"Xứ Wales",
    t!"Tiếng Đan Mạch", t!"Tiếng Đức", t!"", t!"Tiếng Hy Lạp", t!"Tiếng Anh", t!"Tiếng Anh ở Úc", t!"British English",
    t!"Quốc Tế Ngữ", t!"Tiếng Tây Ban Nha", t!"Argentinian Spanish", t!"", t!"Mexican Spanish",
    t!"Tiếng Tây Ban Nha-Nicaragua", t!"Tiếng Vê-nê-du-ê-la", t!"Tiếng Estonia", t!"Tiếng Baxcơ", t!"Tiếng Ba Tư",
    t!"Tiếng Phần Lan", t!"Tiếng Pháp", t!"Tiếng Frisco", t!"Tiếng Ai-len", t!"", t!"Tiếng Pháp cổ", t!"Tiếng Do Thái cổ",
    t!"Tiếng Hindi", t!"Tiếng Croatia", t!"", t!"Tiếng Hung-ga-ri", t!"", t!"Tiếng Khoa học Quốc tế", t!"Ido",
    t!"Tiếng In-đô-nê-xi-a", t!"", t!"Tiếng Aixơlen", t!"Tiếng Ý", t!"Tiếng Nhật Bản", t!"Georgian", t!"", t!"Tiếng Kazakh",
    t!"Tiếng Khơ-me", t!"Tiếng Kannada", t!"Tiếng Hàn Quốc", t!"", t!"Tiếng Luxembourg", t!"Tiếng Lat-vi",
    t!"Ngôn ngữ vùng Bantic", t!"Tiếng Maxêđôni", t!"Tiếng Malayalam", t!"Tiếng Mông Cổ", t!"Marathi", t!"", t!"My-an-ma",
    t!"", t!"Nê-pan", t!"Tiếng Hà Lan", t!"Tiếng Na Uy Nynorsk", t!"", t!"Ô-sét-ti-a", t!"Punjabi", t!"Tiếng Ba lan",
    t!"Tiếng Bồ Đào Nha", t!"Brazilian Portuguese", t!"Tiếng Ru-ma-ni", t!"Tiếng Nga", t!"Ngôn ngữ Slô-vac",
    t!"Tiếng Slôven", t!"Tiếng Albania", t!"Tiếng Xéc-bi", t!"Serbian Latin", t!"Tiếng Thụy Điển",
    t!"Xì-qua-hi-đi thuộc ngôn ngữ Bantu", t!"Tiếng Ta-min", t!"Telugu", t!"", t!"Tiếng Thái", t!"", t!"Tiếng Thổ Nhĩ Kỳ",
    t!"Tác-ta", t!"Udmurt", t!"", t!"Tiếng Ukraina", t!"Urdu", t!"", t!"Tiếng Việt Nam", t!"Tiếng Tàu giản thể",
    t!"Tiếng Tàu truyền thống"]

/-- /repo/humanize/locale/zhHans/django.po. -/
def names_zhHans : Names where
  locale := loc_zhHans
  names := [
    t!"南非荷兰语", t!"阿拉伯语", t!"阿尔及利亚的阿拉伯语", t!"阿斯图里亚斯", t!"阿塞拜疆语", t!"白俄罗斯语", t!"保加利亚语", t!"孟加拉语", t!"布雷顿", t!"波斯尼亚语",
    t!"加泰罗尼亚语", t!"中部库尔德语（Sorani）", t!"捷克语", t!"威尔士语", t!"丹麦语", t!"德语", t!"下索布", t!"希腊语", t!"英语", t!"澳大利亚英语", t!"英国英语",
    t!"世界语", t!"西班牙语", t!"阿根廷西班牙语", t!"哥伦比亚西班牙语", t!"墨西哥西班牙语", t!"尼加拉瓜西班牙语", t!"委内瑞拉西班牙语", t!"爱沙尼亚语", t!"巴斯克语", t!"波斯语",
    t!"芬兰语", t!"法语", t!"夫里斯兰语", t!"爱尔兰语", t!"苏格兰盖尔语", t!"加利西亚语", t!"希伯来语", t!"北印度语", t!"克罗地亚语", t!"上索布", t!"匈牙利语", t!"亚美尼亚语",
    t!"国际语", t!"简化伊多语", t!"印尼语", t!"伊博", t!"冰岛语", t!"意大利语", t!"日语", t!"格鲁吉亚语", t!"卡拜尔语", t!"哈萨克语", t!"高棉语", t!"埃纳德语", t!"韩语",
    t!"吉尔吉斯坦语", t!"卢森堡语", t!"立陶宛语", t!"拉脱维亚语", t!"马其顿语", t!"马来亚拉姆语", t!"蒙古语", t!"马拉地语", t!"马来语", t!"缅甸语", t!"", t!"尼泊尔语",
    t!"荷兰语", t!"新挪威语", t!"", t!"奥塞梯语", t!"旁遮普语 ", t!"波兰语", t!"葡萄牙语", t!"巴西葡萄牙语", t!"罗马尼亚语", t!"俄语", t!"斯洛伐克语", t!"斯洛文尼亚语",
    t!"阿尔巴尼亚语", t!"塞尔维亚语", t!"塞尔维亚拉丁语", t!"瑞典语", t!"斯瓦西里语", t!"泰米尔语", t!"泰卢固语", t!"塔吉克语", t!"泰语", t!"土库曼人", t!"土耳其语",
    t!"鞑靼语", t!"乌德穆尔特语", t!"维吾尔语", t!"乌克兰语", t!"乌尔都语", t!"乌兹别克语", t!"越南语", t!"简体中文", t!"繁体中文"]

/-- /repo/humanize/locale/zhHant/django.po. -/
def names_zhHant : Names where
  locale := loc_zhHant
  names := [
    t!"南非語", t!"阿拉伯語", t!"阿爾及利亞式阿拉伯語", t!"阿斯圖里亞斯語", t!"亞塞拜然語", t!"白俄羅斯語", t!"保加利亞語", t!"孟加拉語", t!"布列塔尼語", t!"波士尼亞語",
    t!"加泰隆語", t!"中部庫爾德語 (Sorani)", t!"捷克語", t!"威爾斯語", t!"丹麥語", t!"德語", t!"下索布語", t!"希臘語", t!"英語", t!"澳大利亞英語", t!"英國英語",
    t!"世界語", t!"西班牙語", t!"阿根廷西班牙語", t!"哥倫比亞西班牙語", t!"墨西哥西班牙語", t!"尼加拉瓜西班牙語", t!"委內瑞拉西班牙語", t!"愛沙尼亞語", t!"巴斯克語", t!"波斯語",
    t!"芬蘭語", t!"法語", t!"菲士蘭語", t!"愛爾蘭語", t!"蘇格蘭蓋爾語", t!"加利西亞語", t!"希伯來語", t!"印地語", t!"克羅埃西亞語", t!"上索布語", t!"匈牙利語", t!"亞美尼亞語",
    t!"國際語", t!"伊多語", t!"印尼語", t!"伊博語", t!"冰島語", t!"義大利語", t!"日語", t!"喬治亞語", t!"卡拜爾語", t!"哈薩克語", t!"高棉語", t!"康納達語", t!"韓語",
    t!"吉爾吉斯語", t!"盧森堡語", t!"立陶宛語", t!"拉脫維亞語", t!"馬其頓語", t!"馬拉雅拉姆語", t!"蒙古語", t!"馬拉提語", t!"馬來語", t!"緬甸語", t!"", t!"尼泊爾語",
    t!"荷蘭語", t!"新挪威語", t!"", t!"奧塞梯語", t!"旁遮普語", t!"波蘭語", t!"葡萄牙語", t!"巴西葡萄牙語", t!"羅馬尼亞語", t!"俄語", t!"斯洛伐克語", t!"斯洛維尼亞語",
    t!"阿爾巴尼亞語", t!"塞爾維亞語", t!"塞爾維亞拉丁語", t!"瑞典語", t!"斯瓦希里語", t!"坦米爾語", t!"泰盧固語", t!"塔吉克語", t!"泰語", t!"土庫曼語", t!"土耳其語",
    t!"韃靼語", t!"烏德穆爾特語", t!"維吾爾語", t!"烏克蘭語", t!"烏爾都語", t!"烏茲別克語", t!"越南語", t!"簡體中文", t!"繁體中文"]

/-- All of them. -/
def shippedNames : List Names := [
  names_af, names_ar, names_arDZ, names_ast, names_az, names_be, names_bg, names_bn,
  names_br, names_bs, names_ca, names_ckb, names_cs, names_cy, names_da, names_de,
  names_dsb, names_el, names_enAU, names_enGB, names_eo, names_es, names_esAR, names_esCO,
  names_esMX, names_esVE, names_et, names_eu, names_fa, names_fi, names_fr, names_fy,
  names_ga, names_gd, names_gl, names_he, names_hi, names_hr, names_hsb, names_hu,
  names_hy, names_ia, names_id, names_ig, names_io, names_is, names_it, names_ja,
  names_ka, names_kab, names_kk, names_km, names_kn, names_ko, names_ky, names_lb,
  names_lt, names_lv, names_mk, names_ml, names_mn, names_mr, names_ms, names_my,
  names_nb, names_ne, names_nl, names_nn, names_os, names_pa, names_pl, names_pt,
  names_ptBR, names_ro, names_ru, names_sk, names_sl, names_sq, names_sr, names_srLatn,
  names_sv, names_sw, names_ta, names_te, names_tg, names_th, names_tk, names_tr,
  names_tt, names_udm, names_ug, names_uk, names_ur, names_uz, names_vi, names_zhHans,
  names_zhHant]

end Verif.Model.Humanize
